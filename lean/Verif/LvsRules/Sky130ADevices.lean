import Verif.LvsRules.Device
import Verif.LvsRules.Sky130A

/-!
# Devices of the LVS script of Sky130A

Translated by `tools/gen_lvs.py` from `pdk/sky130A/libs.tech/kpex/sky130.lvs` and the files it includes: the statements `extract_devices`, and every
assignment that they depend on and that is not in `Verif.LvsRules.Sky130A`. A second assignment to a variable has the suffix `_2`.
-/

namespace Verif.LvsRules.Sky130A

/-- `tunm = polygons(80 , 20 )`; sky130.lvs 749. -/
def «tunm» : Expr := .drawn 80 20

/-- `rpm = polygons(86 , 20 )`; sky130.lvs 755. -/
def «rpm» : Expr := .drawn 86 20

/-- `urpm = polygons(79 , 20 )`; sky130.lvs 756. -/
def «urpm» : Expr := .drawn 79 20

/-- `ldntm = polygons(11 , 44 )`; sky130.lvs 757. -/
def «ldntm» : Expr := .drawn 11 44

/-- `uhvi = polygons(74 , 22 )`; sky130.lvs 809. -/
def «uhvi» : Expr := .drawn 74 22

/-- `areaid_ce = polygons(81 , 2 )`; sky130.lvs 816. -/
def «areaid_ce» : Expr := .drawn 81 2

/-- `areaid_en = polygons(81 , 57 )`; sky130.lvs 838. -/
def «areaid_en» : Expr := .drawn 81 57

/-- `areaid_en20 = polygons(81 , 58 )`; sky130.lvs 839. -/
def «areaid_en20» : Expr := .drawn 81 58

/-- `areaid_le = polygons(81 , 60 )`; sky130.lvs 840. -/
def «areaid_le» : Expr := .drawn 81 60

/-- `tgate = poly.and(diff).not(poly_res).not(poly_cut).not(tap).not(tunm).not(rpm).not(npc).not(hvtr).not(uhv_mos_1).not(uhv_mos_2).not(uhv_mos_3)`; sky130.lvs 976. -/
def «tgate» : Expr := .diff (.diff (.diff (.diff (.diff (.diff (.diff (.diff (.diff (.diff (.and «poly» «diff») «poly_res») «poly_cut») «tap») «tunm») «rpm») «npc») «hvtr») «uhv_mos_1») «uhv_mos_2») «uhv_mos_3»

/-- `ngate = nsdm.and(tgate).not(nwell).not(pwde).not(hvtp).not(psdm)`; sky130.lvs 978. -/
def «ngate» : Expr := .diff (.diff (.diff (.diff (.and «nsdm» «tgate») «nwell») «pwde») «hvtp») «psdm»

/-- `pgate = psdm.and(tgate).and(nwell).not(ldntm).not(nsdm).not(areaid_le)`; sky130.lvs 983. -/
def «pgate» : Expr := .diff (.diff (.diff (.and (.and «psdm» «tgate») «nwell») «ldntm») «nsdm») «areaid_le»

/-- `pgate_low_voltage = pgate.not(hvi).not(uhvi).not(pwbm).not(pwde).not(areaid_en).not(areaid_en20)`; sky130.lvs 1032. -/
def «pgate_low_voltage» : Expr := .diff (.diff (.diff (.diff (.diff (.diff «pgate» «hvi») «uhvi») «pwbm») «pwde») «areaid_en») «areaid_en20»

/-- `pgate_low_voltage_not_pass = pgate_low_voltage.not_interacting(poly_model).not(ncm).not(areaid_ce)`; sky130.lvs 1033. -/
def «pgate_low_voltage_not_pass» : Expr := .diff (.diff (.some "pgate_low_voltage.not_interacting(poly_model)" «pgate_low_voltage») «ncm») «areaid_ce»

/-- `pgate_high_voltage = pgate.and(hvi).not(hvtp).not(areaid_ce)`; sky130.lvs 1034. -/
def «pgate_high_voltage» : Expr := .diff (.diff (.and «pgate» «hvi») «hvtp») «areaid_ce»

/-- `pgate_1p8v = pgate_low_voltage_not_pass.not(hvtp).not(lvtn)`; sky130.lvs 1037. -/
def «pgate_1p8v» : Expr := .diff (.diff «pgate_low_voltage_not_pass» «hvtp») «lvtn»

/-- `pgate_1p8v_lvt = pgate_low_voltage_not_pass.not(hvtp).and(lvtn)`; sky130.lvs 1040. -/
def «pgate_1p8v_lvt» : Expr := .and (.diff «pgate_low_voltage_not_pass» «hvtp») «lvtn»

/-- `pgate_1p8v_hvt = pgate_low_voltage_not_pass.and(hvtp).not(lvtn)`; sky130.lvs 1043. -/
def «pgate_1p8v_hvt» : Expr := .diff (.and «pgate_low_voltage_not_pass» «hvtp») «lvtn»

/-- `pgate_5p0v_hv = pgate_high_voltage.not(lvtn).not(areaid_en).not(areaid_en20)`; sky130.lvs 1046. -/
def «pgate_5p0v_hv» : Expr := .diff (.diff (.diff «pgate_high_voltage» «lvtn») «areaid_en») «areaid_en20»

/-- `ngate_low_voltage = ngate.not(hvi).not(uhvi).not(pwbm).not(areaid_en).not(areaid_en20)`; sky130.lvs 1055. -/
def «ngate_low_voltage» : Expr := .diff (.diff (.diff (.diff (.diff «ngate» «hvi») «uhvi») «pwbm») «areaid_en») «areaid_en20»

/-- `ngate_low_voltage_not_pass = ngate_low_voltage.not_interacting(poly_model).not(ncm).not(ldntm).not(areaid_ce).not(ldntm)`; sky130.lvs 1056. -/
def «ngate_low_voltage_not_pass» : Expr := .diff (.diff (.diff (.diff (.some "ngate_low_voltage.not_interacting(poly_model)" «ngate_low_voltage») «ncm») «ldntm») «areaid_ce») «ldntm»

/-- `ngate_high_voltage = ngate.and(hvi).not(uhvi).not(ncm).not(areaid_ce).not(ldntm).not(pwbm)`; sky130.lvs 1057. -/
def «ngate_high_voltage» : Expr := .diff (.diff (.diff (.diff (.diff (.and «ngate» «hvi») «uhvi») «ncm») «areaid_ce») «ldntm») «pwbm»

/-- `ngate_nvt = ngate_high_voltage.and(lvtn).not(areaid_ed).not(areaid_ce)`; sky130.lvs 1058. -/
def «ngate_nvt» : Expr := .diff (.diff (.and «ngate_high_voltage» «lvtn») «areaid_ed») «areaid_ce»

/-- `ngate_1p8v = ngate_low_voltage_not_pass.not(lvtn)`; sky130.lvs 1061. -/
def «ngate_1p8v» : Expr := .diff «ngate_low_voltage_not_pass» «lvtn»

/-- `ngate_1p8v_lvt = ngate_low_voltage_not_pass.and(lvtn)`; sky130.lvs 1064. -/
def «ngate_1p8v_lvt» : Expr := .and «ngate_low_voltage_not_pass» «lvtn»

/-- `ngate_3p0v_nvt = ngate_nvt.and(areaid_le)`; sky130.lvs 1067. -/
def «ngate_3p0v_nvt» : Expr := .and «ngate_nvt» «areaid_le»

/-- `ngate_5p0v_nvt = ngate_nvt.not(areaid_le).not_interacting(vpp)`; sky130.lvs 1070. -/
def «ngate_5p0v_nvt» : Expr := .some "ngate_nvt.not(areaid_le).not_interacting(vpp)" (.diff «ngate_nvt» «areaid_le»)

/-- `ngate_5p0v_hv = ngate_high_voltage.not(lvtn).not(areaid_en).not(areaid_en20)`; sky130.lvs 1073. -/
def «ngate_5p0v_hv» : Expr := .diff (.diff (.diff «ngate_high_voltage» «lvtn») «areaid_en») «areaid_en20»

/-- `ndiode_5v0_terminal_n = ndiode_terminal_n.not(hvi).not(lvtn)`; sky130.lvs 1150. -/
def «ndiode_5v0_terminal_n» : Expr := .diff (.diff «ndiode_terminal_n» «hvi») «lvtn»

/-- `ndiode_5v0_terminal_p = ndiode_terminal_p.interacting(ndiode_5v0_terminal_n)`; sky130.lvs 1151. -/
def «ndiode_5v0_terminal_p» : Expr := .some "ndiode_terminal_p.interacting(ndiode_5v0_terminal_n)" «ndiode_terminal_p»

/-- `ndiode_5v0_lvt_terminal_n = ndiode_terminal_n.not(hvi).and(lvtn)`; sky130.lvs 1154. -/
def «ndiode_5v0_lvt_terminal_n» : Expr := .and (.diff «ndiode_terminal_n» «hvi») «lvtn»

/-- `ndiode_5v0_lvt_terminal_p = ndiode_terminal_p.interacting(ndiode_5v0_lvt_terminal_n)`; sky130.lvs 1155. -/
def «ndiode_5v0_lvt_terminal_p» : Expr := .some "ndiode_terminal_p.interacting(ndiode_5v0_lvt_terminal_n)" «ndiode_terminal_p»

/-- `ndiode_5v0_nvt_terminal_n = ndiode_terminal_n.and(hvi).and(lvtn)`; sky130.lvs 1158. -/
def «ndiode_5v0_nvt_terminal_n» : Expr := .and (.and «ndiode_terminal_n» «hvi») «lvtn»

/-- `ndiode_5v0_nvt_terminal_p = ndiode_terminal_p.interacting(ndiode_5v0_nvt_terminal_n)`; sky130.lvs 1159. -/
def «ndiode_5v0_nvt_terminal_p» : Expr := .some "ndiode_terminal_p.interacting(ndiode_5v0_nvt_terminal_n)" «ndiode_terminal_p»

/-- `ndiode_11v0_terminal_n = ndiode_terminal_n.and(hvi).not(lvtn)`; sky130.lvs 1162. -/
def «ndiode_11v0_terminal_n» : Expr := .diff (.and «ndiode_terminal_n» «hvi») «lvtn»

/-- `ndiode_11v0_terminal_p = ndiode_terminal_p.interacting(ndiode_11v0_terminal_n)`; sky130.lvs 1163. -/
def «ndiode_11v0_terminal_p» : Expr := .some "ndiode_terminal_p.interacting(ndiode_11v0_terminal_n)" «ndiode_terminal_p»

/-- `pdiode_5v0_terminal_n = pdiode_terminal_n.not(hvtp).not(hvi).not(lvtn)`; sky130.lvs 1166. -/
def «pdiode_5v0_terminal_n» : Expr := .diff (.diff (.diff «pdiode_terminal_n» «hvtp») «hvi») «lvtn»

/-- `pdiode_5v0_terminal_p = pdiode_terminal_p.interacting(pdiode_5v0_terminal_n)`; sky130.lvs 1167. -/
def «pdiode_5v0_terminal_p» : Expr := .some "pdiode_terminal_p.interacting(pdiode_5v0_terminal_n)" «pdiode_terminal_p»

/-- `pdiode_5v0_lvt_terminal_n = pdiode_terminal_n.not(hvtp).not(hvi).and(lvtn)`; sky130.lvs 1170. -/
def «pdiode_5v0_lvt_terminal_n» : Expr := .and (.diff (.diff «pdiode_terminal_n» «hvtp») «hvi») «lvtn»

/-- `pdiode_5v0_lvt_terminal_p = pdiode_terminal_p.interacting(pdiode_5v0_lvt_terminal_n)`; sky130.lvs 1171. -/
def «pdiode_5v0_lvt_terminal_p» : Expr := .some "pdiode_terminal_p.interacting(pdiode_5v0_lvt_terminal_n)" «pdiode_terminal_p»

/-- `pdiode_5v0_hvt_terminal_n = pdiode_terminal_n.and(hvtp).not(hvi).not(lvtn)`; sky130.lvs 1174. -/
def «pdiode_5v0_hvt_terminal_n» : Expr := .diff (.diff (.and «pdiode_terminal_n» «hvtp») «hvi») «lvtn»

/-- `pdiode_5v0_hvt_terminal_p = pdiode_terminal_p.interacting(pdiode_5v0_hvt_terminal_n)`; sky130.lvs 1175. -/
def «pdiode_5v0_hvt_terminal_p» : Expr := .some "pdiode_terminal_p.interacting(pdiode_5v0_hvt_terminal_n)" «pdiode_terminal_p»

/-- `pdiode_11v0_terminal_n = pdiode_terminal_n.not(hvtp).and(hvi).not(lvtn)`; sky130.lvs 1178. -/
def «pdiode_11v0_terminal_n» : Expr := .diff (.and (.diff «pdiode_terminal_n» «hvtp») «hvi») «lvtn»

/-- `pdiode_11v0_terminal_p = pdiode_terminal_p.interacting(pdiode_11v0_terminal_n)`; sky130.lvs 1179. -/
def «pdiode_11v0_terminal_p» : Expr := .some "pdiode_terminal_p.interacting(pdiode_11v0_terminal_n)" «pdiode_terminal_p»

/-- `nplus_res_init = ncomp.and(diff_res)`; sky130.lvs 1206. -/
def «nplus_res_init» : Expr := .and «ncomp» «diff_res»

/-- `pplus_res_init = pcomp.and(nwell).and(diff_res)`; sky130.lvs 1207. -/
def «pplus_res_init» : Expr := .and (.and «pcomp» «nwell») «diff_res»

/-- `nplus_res = nplus_res_init.not(hvi)`; sky130.lvs 1213. -/
def «nplus_res» : Expr := .diff «nplus_res_init» «hvi»

/-- `nplus_hv_res = nplus_res_init.and(hvi)`; sky130.lvs 1217. -/
def «nplus_hv_res» : Expr := .and «nplus_res_init» «hvi»

/-- `pplus_res = pplus_res_init.not(hvi)`; sky130.lvs 1221. -/
def «pplus_res» : Expr := .diff «pplus_res_init» «hvi»

/-- `pplus_hv_res = pplus_res_init.and(hvi)`; sky130.lvs 1225. -/
def «pplus_hv_res» : Expr := .and «pplus_res_init» «hvi»

/-- `pwell_resistor = pwell_res.not(nwell).and(dnwell)`; sky130.lvs 1229. -/
def «pwell_resistor» : Expr := .and (.diff «pwell_res» «nwell») «dnwell»

/-- `pwell_cont = nwell.holes.covering(pwell_term)`; sky130.lvs 1231. -/
def «pwell_cont» : Expr := .some "nwell.holes.covering(pwell_term)" (.made "nwell.holes" «nwell»)

/-- `poly_res_exclude = diff.or(diff_res).or(diff_cut).or(tap).or(pwbm).or(hvtr).or(hvtp).or(lvtn).or(li_cut).or(vpp).or(npnid)`; sky130.lvs 1238. -/
def «poly_res_exclude» : Expr := .or (.or (.or (.or (.or (.or (.or (.or (.or (.or «diff» «diff_res») «diff_cut») «tap») «pwbm») «hvtr») «hvtp») «lvtn») «li_cut») «vpp») «npnid»

/-- `poly_res_init = poly.and(poly_res).not(poly_res_exclude)`; sky130.lvs 1239. -/
def «poly_res_init» : Expr := .diff (.and «poly» «poly_res») «poly_res_exclude»

/-- `poly_res_generic = poly_res_init.not(rpm).not(urpm)`; sky130.lvs 1242. -/
def «poly_res_generic» : Expr := .diff (.diff «poly_res_init» «rpm») «urpm»

/-- `poly_res_300 = poly_res_init.and(psdm).and(rpm).not(urpm)`; sky130.lvs 1245. -/
def «poly_res_300» : Expr := .diff (.and (.and «poly_res_init» «psdm») «rpm») «urpm»

/-- `poly_high_0p35 = poly_res_300.interacting(poly_res_300.edges.with_length(0.34.um, 0.36.um))`; sky130.lvs 1247. -/
def «poly_high_0p35» : Expr := .some "poly_res_300.interacting(poly_res_300.edges.with_length(0.34.um,0.36.um))" «poly_res_300»

/-- `poly_high_0p69 = poly_res_300.interacting(poly_res_300.edges.with_length(0.68.um, 0.7.um ))`; sky130.lvs 1248. -/
def «poly_high_0p69» : Expr := .some "poly_res_300.interacting(poly_res_300.edges.with_length(0.68.um,0.7.um))" «poly_res_300»

/-- `poly_high_1p41 = poly_res_300.interacting(poly_res_300.edges.with_length(1.4.um , 1.42.um))`; sky130.lvs 1249. -/
def «poly_high_1p41» : Expr := .some "poly_res_300.interacting(poly_res_300.edges.with_length(1.4.um,1.42.um))" «poly_res_300»

/-- `poly_high_2p85 = poly_res_300.interacting(poly_res_300.edges.with_length(2.84.um, 2.86.um))`; sky130.lvs 1250. -/
def «poly_high_2p85» : Expr := .some "poly_res_300.interacting(poly_res_300.edges.with_length(2.84.um,2.86.um))" «poly_res_300»

/-- `poly_high_5p73 = poly_res_300.interacting(poly_res_300.edges.with_length(5.72.um, 5.74.um))`; sky130.lvs 1251. -/
def «poly_high_5p73» : Expr := .some "poly_res_300.interacting(poly_res_300.edges.with_length(5.72.um,5.74.um))" «poly_res_300»

/-- `poly_res_2k = poly_res_init.and(psdm).not(rpm).and(urpm)`; sky130.lvs 1254. -/
def «poly_res_2k» : Expr := .and (.diff (.and «poly_res_init» «psdm») «rpm») «urpm»

/-- `poly_xhigh_0p35 = poly_res_2k.interacting(poly_res_2k.edges.with_length(0.34.um, 0.36.um))`; sky130.lvs 1256. -/
def «poly_xhigh_0p35» : Expr := .some "poly_res_2k.interacting(poly_res_2k.edges.with_length(0.34.um,0.36.um))" «poly_res_2k»

/-- `poly_xhigh_0p69 = poly_res_2k.interacting(poly_res_2k.edges.with_length(0.68.um, 0.7.um ))`; sky130.lvs 1257. -/
def «poly_xhigh_0p69» : Expr := .some "poly_res_2k.interacting(poly_res_2k.edges.with_length(0.68.um,0.7.um))" «poly_res_2k»

/-- `poly_xhigh_1p41 = poly_res_2k.interacting(poly_res_2k.edges.with_length(1.4.um , 1.42.um))`; sky130.lvs 1258. -/
def «poly_xhigh_1p41» : Expr := .some "poly_res_2k.interacting(poly_res_2k.edges.with_length(1.4.um,1.42.um))" «poly_res_2k»

/-- `poly_xhigh_2p85 = poly_res_2k.interacting(poly_res_2k.edges.with_length(2.84.um, 2.86.um))`; sky130.lvs 1259. -/
def «poly_xhigh_2p85» : Expr := .some "poly_res_2k.interacting(poly_res_2k.edges.with_length(2.84.um,2.86.um))" «poly_res_2k»

/-- `poly_xhigh_5p73 = poly_res_2k.interacting(poly_res_2k.edges.with_length(5.72.um, 5.74.um))`; sky130.lvs 1260. -/
def «poly_xhigh_5p73» : Expr := .some "poly_res_2k.interacting(poly_res_2k.edges.with_length(5.72.um,5.74.um))" «poly_res_2k»

/-- `li_resistor = li.and(li_res)`; sky130.lvs 1269. -/
def «li_resistor» : Expr := .and «li» «li_res»

/-- `met1_resistor = met1.and(met1_res)`; sky130.lvs 1272. -/
def «met1_resistor» : Expr := .and «met1» «met1_res»

/-- `met2_resistor = met2.and(met2_res)`; sky130.lvs 1275. -/
def «met2_resistor» : Expr := .and «met2» «met2_res»

/-- `met3_resistor = met3.and(met3_res)`; sky130.lvs 1278. -/
def «met3_resistor» : Expr := .and «met3» «met3_res»

/-- `met4_resistor = met4.and(met4_res)`; sky130.lvs 1281. -/
def «met4_resistor» : Expr := .and «met4» «met4_res»

/-- `met5_resistor = met5.and(met5_res)`; sky130.lvs 1284. -/
def «met5_resistor» : Expr := .and «met5» «met5_res»

/-- `met2_fuse_res_layer = met2.and(met2_fuse)`; sky130.lvs 1296. -/
def «met2_fuse_res_layer» : Expr := .and «met2» «met2_fuse»

/-- `met3_fuse_res_layer = met3.and(met3_fuse)`; sky130.lvs 1301. -/
def «met3_fuse_res_layer» : Expr := .and «met3» «met3_fuse»

/-- `met4_fuse_res_layer = met4.and(met4_fuse)`; sky130.lvs 1306. -/
def «met4_fuse_res_layer» : Expr := .and «met4» «met4_fuse»

/-- `varactor_exclude = dnwell.or(hvtr).or(pwbm).or(pwde).or(ncm).or(tunm).or(rpm).or(ldntm).or(npc).or(psdm).or(li_res).or(li_cut).or(areaid_de)`; sky130.lvs 1337. -/
def «varactor_exclude» : Expr := .or (.or (.or (.or (.or (.or (.or (.or (.or (.or (.or (.or «dnwell» «hvtr») «pwbm») «pwde») «ncm») «tunm») «rpm») «ldntm») «npc») «psdm») «li_res») «li_cut») «areaid_de»

/-- `varactor_gate_lvt = poly_con.interacting(varactor_gate.not(hvtp).not(hvi))`; sky130.lvs 1341. -/
def «varactor_gate_lvt» : Expr := .some "poly_con.interacting(varactor_gate.not(hvtp).not(hvi))" «poly_con»

/-- `varactor_nsd_lvt = ntap_conn.not(hvtp).not(hvi).interacting(varactor_gate_lvt).not(varactor_exclude)`; sky130.lvs 1342. -/
def «varactor_nsd_lvt» : Expr := .diff (.some "ntap_conn.not(hvtp).not(hvi).interacting(varactor_gate_lvt)" (.diff (.diff «ntap_conn» «hvtp») «hvi»)) «varactor_exclude»

/-- `varactor_gate_hvt = poly_con.interacting(varactor_gate.and(hvtp).not(hvi))`; sky130.lvs 1346. -/
def «varactor_gate_hvt» : Expr := .some "poly_con.interacting(varactor_gate.and(hvtp).not(hvi))" «poly_con»

/-- `varactor_nsd_hvt = ntap_conn.and(hvtp).not(hvi).interacting(varactor_gate_hvt).not(varactor_exclude)`; sky130.lvs 1347. -/
def «varactor_nsd_hvt» : Expr := .diff (.some "ntap_conn.and(hvtp).not(hvi).interacting(varactor_gate_hvt)" (.diff (.and «ntap_conn» «hvtp») «hvi»)) «varactor_exclude»

/-- `vpp_02p4x04p6_m1m2_noshield = vpp.interacting(vpp_2_08).interacting(vpp_4_25)`; sky130.lvs 1468. -/
def «vpp_02p4x04p6_m1m2_noshield» : Expr := .some "vpp.interacting(vpp_2_08).interacting(vpp_4_25)" (.some "vpp.interacting(vpp_2_08)" «vpp»)

/-- `vpp_02p7x06p1_m1m2m3m4_shieldl1_fingercap = vpp.interacting(vpp_2_36).interacting(vpp_5_76)`; sky130.lvs 1471. -/
def «vpp_02p7x06p1_m1m2m3m4_shieldl1_fingercap» : Expr := .some "vpp.interacting(vpp_2_36).interacting(vpp_5_76)" (.some "vpp.interacting(vpp_2_36)" «vpp»)

/-- `vpp_02p7x11p1_m1m2m3m4_shieldl1_fingercap = vpp.interacting(vpp_2_36).interacting(vpp_10_76)`; sky130.lvs 1474. -/
def «vpp_02p7x11p1_m1m2m3m4_shieldl1_fingercap» : Expr := .some "vpp.interacting(vpp_2_36).interacting(vpp_10_76)" (.some "vpp.interacting(vpp_2_36)" «vpp»)

/-- `vpp_02p7x21p1_m1m2m3m4_shieldl1_fingercap = vpp.interacting(vpp_2_36).interacting(vpp_20_76)`; sky130.lvs 1477. -/
def «vpp_02p7x21p1_m1m2m3m4_shieldl1_fingercap» : Expr := .some "vpp.interacting(vpp_2_36).interacting(vpp_20_76)" (.some "vpp.interacting(vpp_2_36)" «vpp»)

/-- `vpp_02p7x41p1_m1m2m3m4_shieldl1_fingercap = vpp.interacting(vpp_2_36).interacting(vpp_40_76)`; sky130.lvs 1480. -/
def «vpp_02p7x41p1_m1m2m3m4_shieldl1_fingercap» : Expr := .some "vpp.interacting(vpp_2_36).interacting(vpp_40_76)" (.some "vpp.interacting(vpp_2_36)" «vpp»)

/-- `vpp_02p9x06p1_m1m2m3m4_shieldl1_fingercap2 = vpp.interacting(vpp_2_51).interacting(vpp_5_76)`; sky130.lvs 1483. -/
def «vpp_02p9x06p1_m1m2m3m4_shieldl1_fingercap2» : Expr := .some "vpp.interacting(vpp_2_51).interacting(vpp_5_76)" (.some "vpp.interacting(vpp_2_51)" «vpp»)

/-- `vpp_03p9x03p9_m1m2_shieldl1_floatm3 = vpp.interacting(vpp_1_43).interacting(vpp_1_43)`; sky130.lvs 1486. -/
def «vpp_03p9x03p9_m1m2_shieldl1_floatm3» : Expr := .some "vpp.interacting(vpp_1_43).interacting(vpp_1_43)" (.some "vpp.interacting(vpp_1_43)" «vpp»)

/-- `vpp_04p4x04p6_l1m1m2_noshield = vpp.interacting(vpp_04p4x04p6).interacting(vpp_l1m1m2).covering(li.holes)`; sky130.lvs 1489. -/
def «vpp_04p4x04p6_l1m1m2_noshield» : Expr := .some "vpp.interacting(vpp_04p4x04p6).interacting(vpp_l1m1m2).covering(li.holes)" (.some "vpp.interacting(vpp_04p4x04p6).interacting(vpp_l1m1m2)" (.some "vpp.interacting(vpp_04p4x04p6)" «vpp»))

/-- `vpp_04p4x04p6_l1m1m2_noshield_o2subcell = vpp.interacting(vpp_4_38).interacting(vpp_4_59).interacting(vpp_l1m1m2)`; sky130.lvs 1492. -/
def «vpp_04p4x04p6_l1m1m2_noshield_o2subcell» : Expr := .some "vpp.interacting(vpp_4_38).interacting(vpp_4_59).interacting(vpp_l1m1m2)" (.some "vpp.interacting(vpp_4_38).interacting(vpp_4_59)" (.some "vpp.interacting(vpp_4_38)" «vpp»))

/-- `vpp_04p4x04p6_l1m1m2_shieldpo_floatm3 = vpp.interacting(vpp_04p4x04p6).interacting(vpp_pol1m1m2m3)`; sky130.lvs 1495. -/
def «vpp_04p4x04p6_l1m1m2_shieldpo_floatm3» : Expr := .some "vpp.interacting(vpp_04p4x04p6).interacting(vpp_pol1m1m2m3)" (.some "vpp.interacting(vpp_04p4x04p6)" «vpp»)

/-- `vpp_04p4x04p6_m1m2m3_shieldl1 = vpp.interacting(vpp_04p4x04p6).interacting(vpp_l1m1m2m3)`; sky130.lvs 1498. -/
def «vpp_04p4x04p6_m1m2m3_shieldl1» : Expr := .some "vpp.interacting(vpp_04p4x04p6).interacting(vpp_l1m1m2m3)" (.some "vpp.interacting(vpp_04p4x04p6)" «vpp»)

/-- `vpp_04p4x04p6_m1m2m3_shieldl1m5_floatm4 = vpp.interacting(vpp_04p4x04p6).interacting(vpp_l1m1m2m3m4m5)`; sky130.lvs 1501. -/
def «vpp_04p4x04p6_m1m2m3_shieldl1m5_floatm4» : Expr := .some "vpp.interacting(vpp_04p4x04p6).interacting(vpp_l1m1m2m3m4m5)" (.some "vpp.interacting(vpp_04p4x04p6)" «vpp»)

/-- `vpp_04p4x04p6_m1m2_noshield = vpp.interacting(vpp_04p4x04p6).interacting(vpp_m1m2).covering(met1.holes)`; sky130.lvs 1504. -/
def «vpp_04p4x04p6_m1m2_noshield» : Expr := .some "vpp.interacting(vpp_04p4x04p6).interacting(vpp_m1m2).covering(met1.holes)" (.some "vpp.interacting(vpp_04p4x04p6).interacting(vpp_m1m2)" (.some "vpp.interacting(vpp_04p4x04p6)" «vpp»))

/-- `vpp_04p4x04p6_m1m2_noshield_o2 = vpp.interacting(vpp_04p4x04p6).interacting(vpp_m1m2).not_covering(met1.holes)`; sky130.lvs 1507. -/
def «vpp_04p4x04p6_m1m2_noshield_o2» : Expr := .some "vpp.interacting(vpp_04p4x04p6).interacting(vpp_m1m2).not_covering(met1.holes)" (.some "vpp.interacting(vpp_04p4x04p6).interacting(vpp_m1m2)" (.some "vpp.interacting(vpp_04p4x04p6)" «vpp»))

/-- `vpp_04p4x04p6_m1m2_shieldl1 = vpp.interacting(vpp_04p4x04p6).interacting(vpp_l1m1m2).not_covering(li.holes)`; sky130.lvs 1510. -/
def «vpp_04p4x04p6_m1m2_shieldl1» : Expr := .some "vpp.interacting(vpp_04p4x04p6).interacting(vpp_l1m1m2).not_covering(li.holes)" (.some "vpp.interacting(vpp_04p4x04p6).interacting(vpp_l1m1m2)" (.some "vpp.interacting(vpp_04p4x04p6)" «vpp»))

/-- `vpp_05p9x05p9_m1m2m3m4_shieldl1_wafflecap = vpp.interacting(vpp_5_49).interacting(vpp_5_49)`; sky130.lvs 1513. -/
def «vpp_05p9x05p9_m1m2m3m4_shieldl1_wafflecap» : Expr := .some "vpp.interacting(vpp_5_49).interacting(vpp_5_49)" (.some "vpp.interacting(vpp_5_49)" «vpp»)

/-- `vpp_06p8x06p1_l1m1m2m3_shieldpom4 = vpp.interacting(vpp_06p8x06p1).interacting(vpp_pol1m1m2m3m4)`; sky130.lvs 1516. -/
def «vpp_06p8x06p1_l1m1m2m3_shieldpom4» : Expr := .some "vpp.interacting(vpp_06p8x06p1).interacting(vpp_pol1m1m2m3m4)" (.some "vpp.interacting(vpp_06p8x06p1)" «vpp»)

/-- `vpp_06p8x06p1_m1m2m3_shieldl1m4 = vpp.interacting(vpp_06p8x06p1).interacting(vpp_l1m1m2m3m4)`; sky130.lvs 1519. -/
def «vpp_06p8x06p1_m1m2m3_shieldl1m4» : Expr := .some "vpp.interacting(vpp_06p8x06p1).interacting(vpp_l1m1m2m3m4)" (.some "vpp.interacting(vpp_06p8x06p1)" «vpp»)

/-- `vpp_08p6x07p8_l1m1m2_noshield = vpp.interacting(vpp_08p6x07p8).interacting(vpp_l1m1m2).covering(li.holes)`; sky130.lvs 1522. -/
def «vpp_08p6x07p8_l1m1m2_noshield» : Expr := .some "vpp.interacting(vpp_08p6x07p8).interacting(vpp_l1m1m2).covering(li.holes)" (.some "vpp.interacting(vpp_08p6x07p8).interacting(vpp_l1m1m2)" (.some "vpp.interacting(vpp_08p6x07p8)" «vpp»))

/-- `vpp_08p6x07p8_l1m1m2_noshield_o2subcell = vpp.interacting(vpp_7_84).interacting(vpp_8_58).interacting(vpp_l1m1m2)`; sky130.lvs 1525. -/
def «vpp_08p6x07p8_l1m1m2_noshield_o2subcell» : Expr := .some "vpp.interacting(vpp_7_84).interacting(vpp_8_58).interacting(vpp_l1m1m2)" (.some "vpp.interacting(vpp_7_84).interacting(vpp_8_58)" (.some "vpp.interacting(vpp_7_84)" «vpp»))

/-- `vpp_08p6x07p8_l1m1m2_shieldpo_floatm3 = vpp.interacting(vpp_08p6x07p8).interacting(vpp_pol1m1m2m3)`; sky130.lvs 1528. -/
def «vpp_08p6x07p8_l1m1m2_shieldpo_floatm3» : Expr := .some "vpp.interacting(vpp_08p6x07p8).interacting(vpp_pol1m1m2m3)" (.some "vpp.interacting(vpp_08p6x07p8)" «vpp»)

/-- `vpp_08p6x07p8_m1m2m3_shieldl1 = vpp.interacting(vpp_08p6x07p8).interacting(vpp_l1m1m2m3)`; sky130.lvs 1531. -/
def «vpp_08p6x07p8_m1m2m3_shieldl1» : Expr := .some "vpp.interacting(vpp_08p6x07p8).interacting(vpp_l1m1m2m3)" (.some "vpp.interacting(vpp_08p6x07p8)" «vpp»)

/-- `vpp_08p6x07p8_m1m2m3_shieldl1m5_floatm4 = vpp.interacting(vpp_08p6x07p8).interacting(vpp_l1m1m2m3m4m5)`; sky130.lvs 1534. -/
def «vpp_08p6x07p8_m1m2m3_shieldl1m5_floatm4» : Expr := .some "vpp.interacting(vpp_08p6x07p8).interacting(vpp_l1m1m2m3m4m5)" (.some "vpp.interacting(vpp_08p6x07p8)" «vpp»)

/-- `vpp_08p6x07p8_m1m2_noshield = vpp.interacting(vpp_08p6x07p8).interacting(vpp_m1m2)`; sky130.lvs 1537. -/
def «vpp_08p6x07p8_m1m2_noshield» : Expr := .some "vpp.interacting(vpp_08p6x07p8).interacting(vpp_m1m2)" (.some "vpp.interacting(vpp_08p6x07p8)" «vpp»)

/-- `vpp_08p6x07p8_m1m2_shieldl1 = vpp.interacting(vpp_08p6x07p8).interacting(vpp_l1m1m2).not_covering(li.holes)`; sky130.lvs 1540. -/
def «vpp_08p6x07p8_m1m2_shieldl1» : Expr := .some "vpp.interacting(vpp_08p6x07p8).interacting(vpp_l1m1m2).not_covering(li.holes)" (.some "vpp.interacting(vpp_08p6x07p8).interacting(vpp_l1m1m2)" (.some "vpp.interacting(vpp_08p6x07p8)" «vpp»))

/-- `vpp_11p3x11p3_m1m2m3m4_shieldl1_wafflecap = vpp.interacting(vpp_10_99).interacting(vpp_10_99)`; sky130.lvs 1543. -/
def «vpp_11p3x11p3_m1m2m3m4_shieldl1_wafflecap» : Expr := .some "vpp.interacting(vpp_10_99).interacting(vpp_10_99)" (.some "vpp.interacting(vpp_10_99)" «vpp»)

/-- `vpp_11p3x11p8_l1m1m2m3m4_shieldm5_nhv = vpp.interacting(vpp_10_40).interacting(vpp_11_53)`; sky130.lvs 1546. -/
def «vpp_11p3x11p8_l1m1m2m3m4_shieldm5_nhv» : Expr := .some "vpp.interacting(vpp_10_40).interacting(vpp_11_53)" (.some "vpp.interacting(vpp_10_40)" «vpp»)

/-- `vpp_11p5x11p7_l1m1m2m3m4_shieldm5 = vpp.interacting(vpp_11p5x11p7).interacting(vpp_l1m1m2m3m4m5).covering(li.holes).covering(met4.holes)`; sky130.lvs 1549. -/
def «vpp_11p5x11p7_l1m1m2m3m4_shieldm5» : Expr := .some "vpp.interacting(vpp_11p5x11p7).interacting(vpp_l1m1m2m3m4m5).covering(li.holes).covering(met4.holes)" (.some "vpp.interacting(vpp_11p5x11p7).interacting(vpp_l1m1m2m3m4m5).covering(li.holes)" (.some "vpp.interacting(vpp_11p5x11p7).interacting(vpp_l1m1m2m3m4m5)" (.some "vpp.interacting(vpp_11p5x11p7)" «vpp»)))

/-- `vpp_11p5x11p7_l1m1m2m3m4_shieldpom5 = vpp.interacting(vpp_11p5x11p7).interacting(vpp_pol1m1m2m3m4m5).interacting(met5.covering(vpp))`; sky130.lvs 1552. -/
def «vpp_11p5x11p7_l1m1m2m3m4_shieldpom5» : Expr := .some "vpp.interacting(vpp_11p5x11p7).interacting(vpp_pol1m1m2m3m4m5).interacting(met5.covering(vpp))" (.some "vpp.interacting(vpp_11p5x11p7).interacting(vpp_pol1m1m2m3m4m5)" (.some "vpp.interacting(vpp_11p5x11p7)" «vpp»))

/-- `vpp_11p5x11p7_l1m1m2m3m4_shieldpom5_x = vpp.interacting(vpp_11p5x11p7).interacting(vpp_pol1m1m2m3m4m5).interacting(met5.not_covering(vpp))`; sky130.lvs 1555. -/
def «vpp_11p5x11p7_l1m1m2m3m4_shieldpom5_x» : Expr := .some "vpp.interacting(vpp_11p5x11p7).interacting(vpp_pol1m1m2m3m4m5).interacting(met5.not_covering(vpp))" (.some "vpp.interacting(vpp_11p5x11p7).interacting(vpp_pol1m1m2m3m4m5)" (.some "vpp.interacting(vpp_11p5x11p7)" «vpp»))

/-- `vpp_11p5x11p7_l1m1m2m3_shieldm4 = vpp.interacting(vpp_11p5x11p7).interacting(vpp_l1m1m2m3m4)`; sky130.lvs 1570. -/
def «vpp_11p5x11p7_l1m1m2m3_shieldm4» : Expr := .some "vpp.interacting(vpp_11p5x11p7).interacting(vpp_l1m1m2m3m4)" (.some "vpp.interacting(vpp_11p5x11p7)" «vpp»)

/-- `vpp_11p5x11p7_l1m1m2m3_shieldpom4 = vpp.interacting(vpp_11p5x11p7).interacting(vpp_pol1m1m2m3m4)`; sky130.lvs 1573. -/
def «vpp_11p5x11p7_l1m1m2m3_shieldpom4» : Expr := .some "vpp.interacting(vpp_11p5x11p7).interacting(vpp_pol1m1m2m3m4)" (.some "vpp.interacting(vpp_11p5x11p7)" «vpp»)

/-- `vpp_11p5x11p7_l1m1m2_noshield = vpp.interacting(vpp_11p5x11p7).interacting(vpp_l1m1m2).covering(li.holes)`; sky130.lvs 1576. -/
def «vpp_11p5x11p7_l1m1m2_noshield» : Expr := .some "vpp.interacting(vpp_11p5x11p7).interacting(vpp_l1m1m2).covering(li.holes)" (.some "vpp.interacting(vpp_11p5x11p7).interacting(vpp_l1m1m2)" (.some "vpp.interacting(vpp_11p5x11p7)" «vpp»))

/-- `vpp_11p5x11p7_l1m1m2_shieldpom3 = vpp.interacting(vpp_11p5x11p7).interacting(vpp_pol1m1m2m3)`; sky130.lvs 1579. -/
def «vpp_11p5x11p7_l1m1m2_shieldpom3» : Expr := .some "vpp.interacting(vpp_11p5x11p7).interacting(vpp_pol1m1m2m3)" (.some "vpp.interacting(vpp_11p5x11p7)" «vpp»)

/-- `vpp_11p5x11p7_m1m2m3m4_shieldl1m5 = vpp.interacting(vpp_11p5x11p7).interacting(vpp_l1m1m2m3m4m5).not_covering(li.holes).covering(met4.holes)`; sky130.lvs 1582. -/
def «vpp_11p5x11p7_m1m2m3m4_shieldl1m5» : Expr := .some "vpp.interacting(vpp_11p5x11p7).interacting(vpp_l1m1m2m3m4m5).not_covering(li.holes).covering(met4.holes)" (.some "vpp.interacting(vpp_11p5x11p7).interacting(vpp_l1m1m2m3m4m5).not_covering(li.holes)" (.some "vpp.interacting(vpp_11p5x11p7).interacting(vpp_l1m1m2m3m4m5)" (.some "vpp.interacting(vpp_11p5x11p7)" «vpp»)))

/-- `vpp_11p5x11p7_m1m2m3m4_shieldm5 = vpp.interacting(vpp_11p5x11p7).interacting(vpp_m1m2m3m4m5)`; sky130.lvs 1585. -/
def «vpp_11p5x11p7_m1m2m3m4_shieldm5» : Expr := .some "vpp.interacting(vpp_11p5x11p7).interacting(vpp_m1m2m3m4m5)" (.some "vpp.interacting(vpp_11p5x11p7)" «vpp»)

/-- `vpp_11p5x11p7_m1m2m3_shieldl1 = vpp.interacting(vpp_11p5x11p7).interacting(vpp_l1m1m2m3)`; sky130.lvs 1588. -/
def «vpp_11p5x11p7_m1m2m3_shieldl1» : Expr := .some "vpp.interacting(vpp_11p5x11p7).interacting(vpp_l1m1m2m3)" (.some "vpp.interacting(vpp_11p5x11p7)" «vpp»)

/-- `vpp_11p5x11p7_m1m2m3_shieldl1m5_floatm4 = vpp.interacting(vpp_11p5x11p7).interacting(vpp_l1m1m2m3m4m5).not_covering(met4.holes)`; sky130.lvs 1591. -/
def «vpp_11p5x11p7_m1m2m3_shieldl1m5_floatm4» : Expr := .some "vpp.interacting(vpp_11p5x11p7).interacting(vpp_l1m1m2m3m4m5).not_covering(met4.holes)" (.some "vpp.interacting(vpp_11p5x11p7).interacting(vpp_l1m1m2m3m4m5)" (.some "vpp.interacting(vpp_11p5x11p7)" «vpp»))

/-- `vpp_11p5x11p7_m1m2_noshield = vpp.interacting(vpp_11p5x11p7).interacting(vpp_m1m2)`; sky130.lvs 1594. -/
def «vpp_11p5x11p7_m1m2_noshield» : Expr := .some "vpp.interacting(vpp_11p5x11p7).interacting(vpp_m1m2)" (.some "vpp.interacting(vpp_11p5x11p7)" «vpp»)

/-- `vpp_11p5x11p7_m1m2_shieldl1 = vpp.interacting(vpp_11p5x11p7).interacting(vpp_l1m1m2).not_covering(li.holes)`; sky130.lvs 1597. -/
def «vpp_11p5x11p7_m1m2_shieldl1» : Expr := .some "vpp.interacting(vpp_11p5x11p7).interacting(vpp_l1m1m2).not_covering(li.holes)" (.some "vpp.interacting(vpp_11p5x11p7).interacting(vpp_l1m1m2)" (.some "vpp.interacting(vpp_11p5x11p7)" «vpp»))

/-- `vpp_11p5x11p7_m1m4_noshield = vpp.interacting(vpp_11p5x11p7).interacting(vpp_m1m2m3m4)`; sky130.lvs 1600. -/
def «vpp_11p5x11p7_m1m4_noshield» : Expr := .some "vpp.interacting(vpp_11p5x11p7).interacting(vpp_m1m2m3m4)" (.some "vpp.interacting(vpp_11p5x11p7)" «vpp»)

/-- `vpp_11p5x11p7_pol1m1m2m3m4m5_noshield = vpp.interacting(vpp_11_17).interacting(vpp_11_27)`; sky130.lvs 1603. -/
def «vpp_11p5x11p7_pol1m1m2m3m4m5_noshield» : Expr := .some "vpp.interacting(vpp_11_17).interacting(vpp_11_27)" (.some "vpp.interacting(vpp_11_17)" «vpp»)

/-- `vpp_11p5x23p1_pol1m1m2m3m4m5_noshield = vpp.interacting(vpp_11_17).interacting(vpp_22_63)`; sky130.lvs 1606. -/
def «vpp_11p5x23p1_pol1m1m2m3m4m5_noshield» : Expr := .some "vpp.interacting(vpp_11_17).interacting(vpp_22_63)" (.some "vpp.interacting(vpp_11_17)" «vpp»)

/-- `vpp_22p5x11p7_pol1m1m2m3m4m5_noshield = vpp.interacting(vpp_22_27).interacting(vpp_11_27)`; sky130.lvs 1609. -/
def «vpp_22p5x11p7_pol1m1m2m3m4m5_noshield» : Expr := .some "vpp.interacting(vpp_22_27).interacting(vpp_11_27)" (.some "vpp.interacting(vpp_22_27)" «vpp»)

/-- `vpp_22p5x23p1_pol1m1m2m3m4m5_noshield = vpp.interacting(vpp_22_27).interacting(vpp_22_63)`; sky130.lvs 1612. -/
def «vpp_22p5x23p1_pol1m1m2m3m4m5_noshield» : Expr := .some "vpp.interacting(vpp_22_27).interacting(vpp_22_63)" (.some "vpp.interacting(vpp_22_27)" «vpp»)

/-- `vpp_33p6x11p7_pol1m1m2m3m4m5_noshield = vpp.interacting(vpp_33_31).interacting(vpp_11_27)`; sky130.lvs 1615. -/
def «vpp_33p6x11p7_pol1m1m2m3m4m5_noshield» : Expr := .some "vpp.interacting(vpp_33_31).interacting(vpp_11_27)" (.some "vpp.interacting(vpp_33_31)" «vpp»)

/-- `vpp_33p6x23p1_pol1m1m2m3m4m5_noshield = vpp.interacting(vpp_33_31).interacting(vpp_22_63)`; sky130.lvs 1618. -/
def «vpp_33p6x23p1_pol1m1m2m3m4m5_noshield» : Expr := .some "vpp.interacting(vpp_33_31).interacting(vpp_22_63)" (.some "vpp.interacting(vpp_33_31)" «vpp»)

/-- `vpp_44p7x11p7_pol1m1m2m3m4m5_noshield = vpp.interacting(vpp_44_33).interacting(vpp_11_27)`; sky130.lvs 1621. -/
def «vpp_44p7x11p7_pol1m1m2m3m4m5_noshield» : Expr := .some "vpp.interacting(vpp_44_33).interacting(vpp_11_27)" (.some "vpp.interacting(vpp_44_33)" «vpp»)

/-- `vpp_44p7x23p1_pol1m1m2m3m4m5_noshield = vpp.interacting(vpp_44_33).interacting(vpp_22_63)`; sky130.lvs 1624. -/
def «vpp_44p7x23p1_pol1m1m2m3m4m5_noshield» : Expr := .some "vpp.interacting(vpp_44_33).interacting(vpp_22_63)" (.some "vpp.interacting(vpp_44_33)" «vpp»)

/-- `vpp_55p8x11p7_pol1m1m2m3m4m5_noshield = vpp.interacting(vpp_55_45).interacting(vpp_11_27)`; sky130.lvs 1627. -/
def «vpp_55p8x11p7_pol1m1m2m3m4m5_noshield» : Expr := .some "vpp.interacting(vpp_55_45).interacting(vpp_11_27)" (.some "vpp.interacting(vpp_55_45)" «vpp»)

/-- `vpp_55p8x11p7_pol1m1m2m3m4m5_noshield_m5pullin = vpp.interacting(vpp_55_47).interacting(vpp_11_27)`; sky130.lvs 1630. -/
def «vpp_55p8x11p7_pol1m1m2m3m4m5_noshield_m5pullin» : Expr := .some "vpp.interacting(vpp_55_47).interacting(vpp_11_27)" (.some "vpp.interacting(vpp_55_47)" «vpp»)

/-- `vpp_55p8x23p1_pol1m1m2m3m4m5_noshield = vpp.interacting(vpp_55_45).interacting(vpp_22_63)`; sky130.lvs 1633. -/
def «vpp_55p8x23p1_pol1m1m2m3m4m5_noshield» : Expr := .some "vpp.interacting(vpp_55_45).interacting(vpp_22_63)" (.some "vpp.interacting(vpp_55_45)" «vpp»)

/-- `vpp_55p8x23p1_pol1m1m2m3m4m5_noshield_m5pullin = vpp.interacting(vpp_55_47).interacting(vpp_22_63)`; sky130.lvs 1636. -/
def «vpp_55p8x23p1_pol1m1m2m3m4m5_noshield_m5pullin» : Expr := .some "vpp.interacting(vpp_55_47).interacting(vpp_22_63)" (.some "vpp.interacting(vpp_55_47)" «vpp»)

/-- `vpp_55p8x23p1_pol1m1m2m3m4m5_noshield_test = vpp.interacting(vpp_55_39).interacting(vpp_22_63)`; sky130.lvs 1639. -/
def «vpp_55p8x23p1_pol1m1m2m3m4m5_noshield_test» : Expr := .some "vpp.interacting(vpp_55_39).interacting(vpp_22_63)" (.some "vpp.interacting(vpp_55_39)" «vpp»)

/-- `sonos_exclude = diff_res.or(diff_cut).or(tap).or(pwbm).or(pwde).or(hvtr).or(nwell).or(hvtp).or(ncm).or(hvi).or(rpm).or(poly_res).or(poly_cut).or(npc)`; sky130.lvs 1649. -/
def «sonos_exclude» : Expr := .or (.or (.or (.or (.or (.or (.or (.or (.or (.or (.or (.or (.or «diff_res» «diff_cut») «tap») «pwbm») «pwde») «hvtr») «nwell») «hvtp») «ncm») «hvi») «rpm») «poly_res») «poly_cut») «npc»

/-- `sonos_tgate = poly.and(diff).not(sonos_exclude)`; sky130.lvs 1650. -/
def «sonos_tgate» : Expr := .diff (.and «poly» «diff») «sonos_exclude»

/-- `sonos_ngate = nsdm.and(sonos_tgate).not(psdm)`; sky130.lvs 1651. -/
def «sonos_ngate» : Expr := .diff (.and «nsdm» «sonos_tgate») «psdm»

/-- `sonos_gate = sonos_ngate.and(lvtn).and(dnwell).and(tunm).and(ldntm).interacting(areaid_ce)`; sky130.lvs 1652. -/
def «sonos_gate» : Expr := .some "sonos_ngate.and(lvtn).and(dnwell).and(tunm).and(ldntm).interacting(areaid_ce)" (.and (.and (.and (.and «sonos_ngate» «lvtn») «dnwell») «tunm») «ldntm»)

/-- sky130.lvs 1961. -/
def device0 : DeviceRule := ⟨"mos4", "sky130_fd_pr__pfet_01v8", [
  ("SD", "psd", «psd»), ("G", "pgate_1p8v", «pgate_1p8v»), ("tS", "psd", «psd»), ("tD", "psd", «psd»),
  ("tG", "poly_con", «poly_con»), ("W", "nwell", «nwell»)]⟩

/-- sky130.lvs 1965. -/
def device1 : DeviceRule := ⟨"mos4", "sky130_fd_pr__pfet_01v8_lvt", [
  ("SD", "psd", «psd»), ("G", "pgate_1p8v_lvt", «pgate_1p8v_lvt»), ("tS", "psd", «psd»), ("tD", "psd", «psd»),
  ("tG", "poly_con", «poly_con»), ("W", "nwell", «nwell»)]⟩

/-- sky130.lvs 1969. -/
def device2 : DeviceRule := ⟨"mos4", "sky130_fd_pr__pfet_01v8_hvt", [
  ("SD", "psd", «psd»), ("G", "pgate_1p8v_hvt", «pgate_1p8v_hvt»), ("tS", "psd", «psd»), ("tD", "psd", «psd»),
  ("tG", "poly_con", «poly_con»), ("W", "nwell", «nwell»)]⟩

/-- sky130.lvs 1973. -/
def device3 : DeviceRule := ⟨"mos4", "sky130_fd_pr__pfet_g5v0d10v5", [
  ("SD", "psd", «psd»), ("G", "pgate_5p0v_hv", «pgate_5p0v_hv»), ("tS", "psd", «psd»), ("tD", "psd", «psd»),
  ("tG", "poly_con", «poly_con»), ("W", "nwell", «nwell»)]⟩

/-- sky130.lvs 1983. -/
def device4 : DeviceRule := ⟨"mos4", "sky130_fd_pr__nfet_01v8", [
  ("SD", "nsd", «nsd»), ("G", "ngate_1p8v", «ngate_1p8v»), ("tS", "nsd", «nsd»), ("tD", "nsd", «nsd»),
  ("tG", "poly_con", «poly_con»), ("W", "sub", «sub»)]⟩

/-- sky130.lvs 1987. -/
def device5 : DeviceRule := ⟨"mos4", "sky130_fd_pr__nfet_01v8_lvt", [
  ("SD", "nsd", «nsd»), ("G", "ngate_1p8v_lvt", «ngate_1p8v_lvt»), ("tS", "nsd", «nsd»), ("tD", "nsd", «nsd»),
  ("tG", "poly_con", «poly_con»), ("W", "sub", «sub»)]⟩

/-- sky130.lvs 1991. -/
def device6 : DeviceRule := ⟨"mos4", "sky130_fd_pr__nfet_03v3_nvt", [
  ("SD", "nsd", «nsd»), ("G", "ngate_3p0v_nvt", «ngate_3p0v_nvt»), ("tS", "nsd", «nsd»), ("tD", "nsd", «nsd»),
  ("tG", "poly_con", «poly_con»), ("W", "sub", «sub»)]⟩

/-- sky130.lvs 1995. -/
def device7 : DeviceRule := ⟨"mos4", "sky130_fd_pr__nfet_05v0_nvt", [
  ("SD", "nsd", «nsd»), ("G", "ngate_5p0v_nvt", «ngate_5p0v_nvt»), ("tS", "nsd", «nsd»), ("tD", "nsd", «nsd»),
  ("tG", "poly_con", «poly_con»), ("W", "sub", «sub»)]⟩

/-- sky130.lvs 1999. -/
def device8 : DeviceRule := ⟨"mos4", "sky130_fd_pr__nfet_g5v0d10v5", [
  ("SD", "nsd", «nsd»), ("G", "ngate_5p0v_hv", «ngate_5p0v_hv»), ("tS", "nsd", «nsd»), ("tD", "nsd", «nsd»),
  ("tG", "poly_con", «poly_con»), ("W", "sub", «sub»)]⟩

/-- sky130.lvs 2017. -/
def device9 : DeviceRule := ⟨"bjt4", "sky130_fd_pr__npn_05v5_W1p00L1p00", [
  ("C", "npn_5v0_1x1_c.extents", .made "npn_5v0_1x1_c.extents" «npn_5v0_1x1_c»),
  ("B", "npn_5v0_1x1_b.extents", .made "npn_5v0_1x1_b.extents" «npn_5v0_1x1_b»),
  ("E", "npn_5v0_1x1_e", «npn_5v0_1x1_e»), ("S", "sub.extents", .made "sub.extents" «sub»),
  ("tC", "npn_5v0_1x1_c", «npn_5v0_1x1_c»), ("tB", "npn_5v0_1x1_b", «npn_5v0_1x1_b»),
  ("tE", "npn_5v0_1x1_e", «npn_5v0_1x1_e»), ("tS", "sub", «sub»)]⟩

/-- sky130.lvs 2023. -/
def device10 : DeviceRule := ⟨"bjt4", "sky130_fd_pr__npn_05v5_W1p00L2p00", [
  ("C", "npn_5v0_1x2_c.extents", .made "npn_5v0_1x2_c.extents" «npn_5v0_1x2_c»),
  ("B", "npn_5v0_1x2_b.extents", .made "npn_5v0_1x2_b.extents" «npn_5v0_1x2_b»),
  ("E", "npn_5v0_1x2_e", «npn_5v0_1x2_e»), ("S", "sub.extents", .made "sub.extents" «sub»),
  ("tC", "npn_5v0_1x2_c", «npn_5v0_1x2_c»), ("tB", "npn_5v0_1x2_b", «npn_5v0_1x2_b»),
  ("tE", "npn_5v0_1x2_e", «npn_5v0_1x2_e»), ("tS", "sub", «sub»)]⟩

/-- sky130.lvs 2029. -/
def device11 : DeviceRule := ⟨"FixBJT4Transistor", "sky130_fd_pr__npn_11v0_W1p00L1p00", [
  ("BJT", "npn_11v0_1x1_c.extents", .made "npn_11v0_1x1_c.extents" «npn_11v0_1x1_c»),
  ("tC", "npn_11v0_1x1_c", «npn_11v0_1x1_c»), ("tB", "npn_11v0_1x1_b", «npn_11v0_1x1_b»),
  ("tE", "npn_11v0_1x1_e", «npn_11v0_1x1_e»), ("tS", "sub", «sub»)]⟩

/-- sky130.lvs 2041. -/
def device12 : DeviceRule := ⟨"bjt3", "sky130_fd_pr__pnp_05v5_W0p68L0p68", [
  ("C", "pnp_5v0_0p68x0p68_c.extents", .made "pnp_5v0_0p68x0p68_c.extents" «pnp_5v0_0p68x0p68_c»),
  ("B", "pnp_5v0_0p68x0p68_b.extents", .made "pnp_5v0_0p68x0p68_b.extents" «pnp_5v0_0p68x0p68_b»),
  ("E", "pnp_5v0_0p68x0p68_e", «pnp_5v0_0p68x0p68_e»), ("tC", "pnp_5v0_0p68x0p68_c", «pnp_5v0_0p68x0p68_c»),
  ("tB", "pnp_5v0_0p68x0p68_b", «pnp_5v0_0p68x0p68_b»), ("tE", "pnp_5v0_0p68x0p68_e", «pnp_5v0_0p68x0p68_e»)]⟩

/-- sky130.lvs 2047. -/
def device13 : DeviceRule := ⟨"bjt3", "sky130_fd_pr__pnp_05v5_W3p40L3p40", [
  ("C", "pnp_5v0_3p4x3p4_c.extents", .made "pnp_5v0_3p4x3p4_c.extents" «pnp_5v0_3p4x3p4_c»),
  ("B", "pnp_5v0_3p4x3p4_b.extents", .made "pnp_5v0_3p4x3p4_b.extents" «pnp_5v0_3p4x3p4_b»),
  ("E", "pnp_5v0_3p4x3p4_e", «pnp_5v0_3p4x3p4_e»), ("tC", "pnp_5v0_3p4x3p4_c", «pnp_5v0_3p4x3p4_c»),
  ("tB", "pnp_5v0_3p4x3p4_b", «pnp_5v0_3p4x3p4_b»), ("tE", "pnp_5v0_3p4x3p4_e", «pnp_5v0_3p4x3p4_e»)]⟩

/-- sky130.lvs 2059. -/
def device14 : DeviceRule := ⟨"diode", "sky130_fd_pr__diode_pw2nd_05v5", [
  ("P", "ndiode_5v0_terminal_p", «ndiode_5v0_terminal_p»), ("N", "ndiode_5v0_terminal_n", «ndiode_5v0_terminal_n»),
  ("tA", "ndiode_terminal_p", «ndiode_terminal_p»), ("tC", "ndiode_terminal_n", «ndiode_terminal_n»)]⟩

/-- sky130.lvs 2063. -/
def device15 : DeviceRule := ⟨"diode", "sky130_fd_pr__diode_pw2nd_05v5_lvt", [
  ("N", "ndiode_5v0_lvt_terminal_n", «ndiode_5v0_lvt_terminal_n»),
  ("P", "ndiode_5v0_lvt_terminal_p", «ndiode_5v0_lvt_terminal_p»), ("tA", "ndiode_terminal_n", «ndiode_terminal_n»),
  ("tC", "ndiode_terminal_p", «ndiode_terminal_p»)]⟩

/-- sky130.lvs 2067. -/
def device16 : DeviceRule := ⟨"diode", "sky130_fd_pr__diode_pw2nd_05v5_nvt", [
  ("N", "ndiode_5v0_nvt_terminal_n", «ndiode_5v0_nvt_terminal_n»),
  ("P", "ndiode_5v0_nvt_terminal_p", «ndiode_5v0_nvt_terminal_p»), ("tA", "ndiode_terminal_n", «ndiode_terminal_n»),
  ("tC", "ndiode_terminal_p", «ndiode_terminal_p»)]⟩

/-- sky130.lvs 2071. -/
def device17 : DeviceRule := ⟨"diode", "sky130_fd_pr__diode_pw2nd_11v0", [
  ("N", "ndiode_11v0_terminal_n", «ndiode_11v0_terminal_n»),
  ("P", "ndiode_11v0_terminal_p", «ndiode_11v0_terminal_p»), ("tA", "ndiode_terminal_n", «ndiode_terminal_n»),
  ("tC", "ndiode_terminal_p", «ndiode_terminal_p»)]⟩

/-- sky130.lvs 2075. -/
def device18 : DeviceRule := ⟨"diode", "sky130_fd_pr__diode_pd2nw_05v5", [
  ("N", "pdiode_5v0_terminal_n", «pdiode_5v0_terminal_n»), ("P", "pdiode_5v0_terminal_p", «pdiode_5v0_terminal_p»),
  ("tA", "pdiode_terminal_n", «pdiode_terminal_n»), ("tC", "pdiode_terminal_p", «pdiode_terminal_p»)]⟩

/-- sky130.lvs 2079. -/
def device19 : DeviceRule := ⟨"diode", "sky130_fd_pr__diode_pd2nw_05v5_lvt", [
  ("N", "pdiode_5v0_lvt_terminal_n", «pdiode_5v0_lvt_terminal_n»),
  ("P", "pdiode_5v0_lvt_terminal_p", «pdiode_5v0_lvt_terminal_p»), ("tA", "pdiode_terminal_n", «pdiode_terminal_n»),
  ("tC", "pdiode_terminal_p", «pdiode_terminal_p»)]⟩

/-- sky130.lvs 2083. -/
def device20 : DeviceRule := ⟨"diode", "sky130_fd_pr__diode_pd2nw_05v5_hvt", [
  ("N", "pdiode_5v0_hvt_terminal_n", «pdiode_5v0_hvt_terminal_n»),
  ("P", "pdiode_5v0_hvt_terminal_p", «pdiode_5v0_hvt_terminal_p»), ("tA", "pdiode_terminal_n", «pdiode_terminal_n»),
  ("tC", "pdiode_terminal_p", «pdiode_terminal_p»)]⟩

/-- sky130.lvs 2087. -/
def device21 : DeviceRule := ⟨"diode", "sky130_fd_pr__diode_pd2nw_11v0", [
  ("N", "pdiode_11v0_terminal_n", «pdiode_11v0_terminal_n»),
  ("P", "pdiode_11v0_terminal_p", «pdiode_11v0_terminal_p»), ("tA", "pdiode_terminal_n", «pdiode_terminal_n»),
  ("tC", "pdiode_terminal_p", «pdiode_terminal_p»)]⟩

/-- sky130.lvs 2098. -/
def device22 : DeviceRule := ⟨"diode", "sky130_fd_pr__photodiode", [
  ("P", "photodiode_p", «photodiode_p»), ("N", "photodiode_n", «photodiode_n»)]⟩

/-- sky130.lvs 2115. -/
def device23 : DeviceRule := ⟨"resistor_with_bulk", "sky130_fd_pr__res_generic_nd", [
  ("R", "nplus_res", «nplus_res»), ("C", "nplus_cont", «nplus_cont»), ("W", "sub", «sub»)]⟩

/-- sky130.lvs 2119. -/
def device24 : DeviceRule := ⟨"resistor_with_bulk", "sky130_fd_pr__res_generic_nd_hv", [
  ("R", "nplus_hv_res", «nplus_hv_res»), ("C", "nplus_hv_cont", «nplus_hv_cont»), ("W", "sub", «sub»)]⟩

/-- sky130.lvs 2123. -/
def device25 : DeviceRule := ⟨"resistor_with_bulk", "sky130_fd_pr__res_generic_pd", [
  ("R", "pplus_res", «pplus_res»), ("C", "pplus_cont", «pplus_cont»), ("W", "nwell", «nwell»)]⟩

/-- sky130.lvs 2127. -/
def device26 : DeviceRule := ⟨"resistor_with_bulk", "sky130_fd_pr__res_generic_pd_hv", [
  ("R", "pplus_hv_res", «pplus_hv_res»), ("C", "pplus_hv_cont", «pplus_hv_cont»), ("W", "nwell", «nwell»)]⟩

/-- sky130.lvs 2131. -/
def device27 : DeviceRule := ⟨"resistor_with_bulk", "sky130_fd_pr__res_iso_pw", [
  ("R", "pwell_resistor", «pwell_resistor»), ("C", "pwell_cont", «pwell_cont»), ("W", "dnwell", «dnwell»),
  ("tA", "pwell_term", «pwell_term»), ("tB", "pwell_term", «pwell_term»), ("tW", "dnwell", «dnwell»)]⟩

/-- sky130.lvs 2139. -/
def device28 : DeviceRule := ⟨"resistor", "sky130_fd_pr__res_generic_po", [
  ("R", "poly_res_generic", «poly_res_generic»), ("C", "poly_con", «poly_con»)]⟩

/-- sky130.lvs 2143. -/
def device29 : DeviceRule := ⟨"resistor_with_bulk", "sky130_fd_pr__res_high_po_0p35", [
  ("R", "poly_high_0p35", «poly_high_0p35»), ("C", "poly_con", «poly_con»), ("W", "sub", «sub»)]⟩

/-- sky130.lvs 2147. -/
def device30 : DeviceRule := ⟨"resistor_with_bulk", "sky130_fd_pr__res_high_po_0p69", [
  ("R", "poly_high_0p69", «poly_high_0p69»), ("C", "poly_con", «poly_con»), ("W", "sub", «sub»)]⟩

/-- sky130.lvs 2151. -/
def device31 : DeviceRule := ⟨"resistor_with_bulk", "sky130_fd_pr__res_high_po_1p41", [
  ("R", "poly_high_1p41", «poly_high_1p41»), ("C", "poly_con", «poly_con»), ("W", "sub", «sub»)]⟩

/-- sky130.lvs 2155. -/
def device32 : DeviceRule := ⟨"resistor_with_bulk", "sky130_fd_pr__res_high_po_2p85", [
  ("R", "poly_high_2p85", «poly_high_2p85»), ("C", "poly_con", «poly_con»), ("W", "sub", «sub»)]⟩

/-- sky130.lvs 2159. -/
def device33 : DeviceRule := ⟨"resistor_with_bulk", "sky130_fd_pr__res_high_po_5p73", [
  ("R", "poly_high_5p73", «poly_high_5p73»), ("C", "poly_con", «poly_con»), ("W", "sub", «sub»)]⟩

/-- sky130.lvs 2163. -/
def device34 : DeviceRule := ⟨"resistor_with_bulk", "sky130_fd_pr__res_xhigh_po_0p35", [
  ("R", "poly_xhigh_0p35", «poly_xhigh_0p35»), ("C", "poly_con", «poly_con»), ("W", "sub", «sub»)]⟩

/-- sky130.lvs 2167. -/
def device35 : DeviceRule := ⟨"resistor_with_bulk", "sky130_fd_pr__res_xhigh_po_0p69", [
  ("R", "poly_xhigh_0p69", «poly_xhigh_0p69»), ("C", "poly_con", «poly_con»), ("W", "sub", «sub»)]⟩

/-- sky130.lvs 2171. -/
def device36 : DeviceRule := ⟨"resistor_with_bulk", "sky130_fd_pr__res_xhigh_po_1p41", [
  ("R", "poly_xhigh_1p41", «poly_xhigh_1p41»), ("C", "poly_con", «poly_con»), ("W", "sub", «sub»)]⟩

/-- sky130.lvs 2175. -/
def device37 : DeviceRule := ⟨"resistor_with_bulk", "sky130_fd_pr__res_xhigh_po_2p85", [
  ("R", "poly_xhigh_2p85", «poly_xhigh_2p85»), ("C", "poly_con", «poly_con»), ("W", "sub", «sub»)]⟩

/-- sky130.lvs 2179. -/
def device38 : DeviceRule := ⟨"resistor_with_bulk", "sky130_fd_pr__res_xhigh_po_5p73", [
  ("R", "poly_xhigh_5p73", «poly_xhigh_5p73»), ("C", "poly_con", «poly_con»), ("W", "sub", «sub»)]⟩

/-- sky130.lvs 2187. -/
def device39 : DeviceRule := ⟨"resistor", "sky130_fd_pr__res_generic_l1", [
  ("R", "li_resistor", «li_resistor»), ("C", "li_con", «li_con»)]⟩

/-- sky130.lvs 2191. -/
def device40 : DeviceRule := ⟨"resistor", "sky130_fd_pr__res_generic_m1", [
  ("R", "met1_resistor", «met1_resistor»), ("C", "met1_con", «met1_con»)]⟩

/-- sky130.lvs 2195. -/
def device41 : DeviceRule := ⟨"resistor", "sky130_fd_pr__res_generic_m2", [
  ("R", "met2_resistor", «met2_resistor»), ("C", "met2_con", «met2_con»)]⟩

/-- sky130.lvs 2199. -/
def device42 : DeviceRule := ⟨"resistor", "sky130_fd_pr__res_generic_m3", [
  ("R", "met3_resistor", «met3_resistor»), ("C", "met3_con", «met3_con»)]⟩

/-- sky130.lvs 2203. -/
def device43 : DeviceRule := ⟨"resistor", "sky130_fd_pr__res_generic_m4", [
  ("R", "met4_resistor", «met4_resistor»), ("C", "met4_con", «met4_con»)]⟩

/-- sky130.lvs 2207. -/
def device44 : DeviceRule := ⟨"resistor", "sky130_fd_pr__res_generic_m5", [
  ("R", "met5_resistor", «met5_resistor»), ("C", "met5_con", «met5_con»)]⟩

/-- sky130.lvs 2220. -/
def device45 : DeviceRule := ⟨"resistor", "sky130_fd_pr__fuse_m2", [
  ("R", "met2_fuse_res_layer", «met2_fuse_res_layer»), ("C", "met2_con", «met2_con»)]⟩

/-- sky130.lvs 2226. -/
def device46 : DeviceRule := ⟨"resistor", "sky130_fd_pr__fuse_m3", [
  ("R", "met3_fuse_res_layer", «met3_fuse_res_layer»), ("C", "met3_ncap", «met3_ncap»)]⟩

/-- sky130.lvs 2232. -/
def device47 : DeviceRule := ⟨"resistor", "sky130_fd_pr__fuse_m4", [
  ("R", "met4_fuse_res_layer", «met4_fuse_res_layer»), ("C", "met4_ncap", «met4_ncap»)]⟩

/-- sky130.lvs 2245. -/
def device48 : DeviceRule := ⟨"capacitor", "sky130_fd_pr__model__cap_mim", [
  ("P1", "met3_cap", «met3_cap»), ("P2", "capm", «capm»)]⟩

/-- sky130.lvs 2250. -/
def device49 : DeviceRule := ⟨"capacitor", "sky130_fd_pr__model__cap_mim_m4", [
  ("P1", "met4_cap", «met4_cap»), ("P2", "capm2", «capm2»)]⟩

/-- sky130.lvs 2261. -/
def device50 : DeviceRule := ⟨"capacitor_with_bulk", "sky130_fd_pr__cap_var_lvt", [
  ("P1", "varactor_gate_lvt", «varactor_gate_lvt»), ("P2", "varactor_nsd_lvt", «varactor_nsd_lvt»),
  ("W", "varactor_bulk_lvt", «varactor_bulk_lvt»), ("tA", "poly_con", «poly_con»), ("tB", "ntap_conn", «ntap_conn»)]⟩

/-- sky130.lvs 2265. -/
def device51 : DeviceRule := ⟨"capacitor_with_bulk", "sky130_fd_pr__cap_var_hvt", [
  ("P1", "varactor_gate_hvt", «varactor_gate_hvt»), ("P2", "varactor_nsd_hvt", «varactor_nsd_hvt»),
  ("W", "varactor_bulk_hvt", «varactor_bulk_hvt»), ("tA", "poly_con", «poly_con»), ("tB", "ntap_conn", «ntap_conn»)]⟩

/-- sky130.lvs 2295. -/
def device52 : DeviceRule := ⟨"VPP3Extractor", "sky130_fd_pr__cap_vpp_02p4x04p6_m1m2_noshield", [
  ("C", "met2_vpp", «met2_vpp»), ("M", "vpp_02p4x04p6_m1m2_noshield", «vpp_02p4x04p6_m1m2_noshield»),
  ("B", "vpp_sub", «vpp_sub»)]⟩

/-- sky130.lvs 2299. -/
def device53 : DeviceRule := ⟨"VPP3Extractor", "sky130_fd_pr__cap_vpp_02p7x06p1_m1m2m3m4_shieldl1_fingercap", [
  ("C", "met2_vpp", «met2_vpp»),
  ("M", "vpp_02p7x06p1_m1m2m3m4_shieldl1_fingercap", «vpp_02p7x06p1_m1m2m3m4_shieldl1_fingercap»),
  ("B", "vpp_sub", «vpp_sub»)]⟩

/-- sky130.lvs 2303. -/
def device54 : DeviceRule := ⟨"VPP3Extractor", "sky130_fd_pr__cap_vpp_02p7x11p1_m1m2m3m4_shieldl1_fingercap", [
  ("C", "met2_vpp", «met2_vpp»),
  ("M", "vpp_02p7x11p1_m1m2m3m4_shieldl1_fingercap", «vpp_02p7x11p1_m1m2m3m4_shieldl1_fingercap»),
  ("B", "vpp_sub", «vpp_sub»)]⟩

/-- sky130.lvs 2307. -/
def device55 : DeviceRule := ⟨"VPP3Extractor", "sky130_fd_pr__cap_vpp_02p7x21p1_m1m2m3m4_shieldl1_fingercap", [
  ("C", "met2_vpp", «met2_vpp»),
  ("M", "vpp_02p7x21p1_m1m2m3m4_shieldl1_fingercap", «vpp_02p7x21p1_m1m2m3m4_shieldl1_fingercap»),
  ("B", "vpp_sub", «vpp_sub»)]⟩

/-- sky130.lvs 2311. -/
def device56 : DeviceRule := ⟨"VPP3Extractor", "sky130_fd_pr__cap_vpp_02p7x41p1_m1m2m3m4_shieldl1_fingercap", [
  ("C", "met2_vpp", «met2_vpp»),
  ("M", "vpp_02p7x41p1_m1m2m3m4_shieldl1_fingercap", «vpp_02p7x41p1_m1m2m3m4_shieldl1_fingercap»),
  ("B", "vpp_sub", «vpp_sub»)]⟩

/-- sky130.lvs 2315. -/
def device57 : DeviceRule := ⟨"VPP3Extractor", "sky130_fd_pr__cap_vpp_02p9x06p1_m1m2m3m4_shieldl1_fingercap2", [
  ("C", "met2_vpp", «met2_vpp»),
  ("M", "vpp_02p9x06p1_m1m2m3m4_shieldl1_fingercap2", «vpp_02p9x06p1_m1m2m3m4_shieldl1_fingercap2»),
  ("B", "vpp_sub", «vpp_sub»)]⟩

/-- sky130.lvs 2319. -/
def device58 : DeviceRule := ⟨"VPP4Extractor", "sky130_fd_pr__cap_vpp_03p9x03p9_m1m2_shieldl1_floatm3", [
  ("C1", "met2_vpp", «met2_vpp»), ("C2", "met3_vpp", «met3_vpp»),
  ("M", "vpp_03p9x03p9_m1m2_shieldl1_floatm3", «vpp_03p9x03p9_m1m2_shieldl1_floatm3»), ("B", "vpp_sub", «vpp_sub»)]⟩

/-- sky130.lvs 2323. -/
def device59 : DeviceRule := ⟨"VPP3Extractor", "sky130_fd_pr__cap_vpp_04p4x04p6_l1m1m2_noshield", [
  ("C", "met2_vpp", «met2_vpp»), ("M", "vpp_04p4x04p6_l1m1m2_noshield", «vpp_04p4x04p6_l1m1m2_noshield»),
  ("B", "vpp_sub", «vpp_sub»)]⟩

/-- sky130.lvs 2327. -/
def device60 : DeviceRule := ⟨"VPP3Extractor", "sky130_fd_pr__cap_vpp_04p4x04p6_l1m1m2_noshield_o2subcell", [
  ("C", "met2_vpp", «met2_vpp»),
  ("M", "vpp_04p4x04p6_l1m1m2_noshield_o2subcell", «vpp_04p4x04p6_l1m1m2_noshield_o2subcell»),
  ("B", "vpp_sub", «vpp_sub»)]⟩

/-- sky130.lvs 2331. -/
def device61 : DeviceRule := ⟨"VPP4Extractor", "sky130_fd_pr__cap_vpp_04p4x04p6_l1m1m2_shieldpo_floatm3", [
  ("C1", "met2_vpp", «met2_vpp»), ("C2", "met3_vpp", «met3_vpp»),
  ("M", "vpp_04p4x04p6_l1m1m2_shieldpo_floatm3", «vpp_04p4x04p6_l1m1m2_shieldpo_floatm3»),
  ("B", "vpp_sub", «vpp_sub»)]⟩

/-- sky130.lvs 2335. -/
def device62 : DeviceRule := ⟨"VPP3Extractor", "sky130_fd_pr__cap_vpp_04p4x04p6_m1m2m3_shieldl1", [
  ("C", "met2_vpp", «met2_vpp»), ("M", "vpp_04p4x04p6_m1m2m3_shieldl1", «vpp_04p4x04p6_m1m2m3_shieldl1»),
  ("B", "vpp_sub", «vpp_sub»)]⟩

/-- sky130.lvs 2339. -/
def device63 : DeviceRule := ⟨"VPP4Extractor", "sky130_fd_pr__cap_vpp_04p4x04p6_m1m2m3_shieldl1m5_floatm4", [
  ("C1", "met2_vpp", «met2_vpp»), ("C2", "met5_vpp", «met5_vpp»),
  ("M", "vpp_04p4x04p6_m1m2m3_shieldl1m5_floatm4", «vpp_04p4x04p6_m1m2m3_shieldl1m5_floatm4»),
  ("B", "vpp_sub", «vpp_sub»)]⟩

/-- sky130.lvs 2343. -/
def device64 : DeviceRule := ⟨"VPP3Extractor", "sky130_fd_pr__cap_vpp_04p4x04p6_m1m2_noshield", [
  ("C", "met2_vpp", «met2_vpp»), ("M", "vpp_04p4x04p6_m1m2_noshield", «vpp_04p4x04p6_m1m2_noshield»),
  ("B", "vpp_sub", «vpp_sub»)]⟩

/-- sky130.lvs 2347. -/
def device65 : DeviceRule := ⟨"VPP3Extractor", "sky130_fd_pr__cap_vpp_04p4x04p6_m1m2_noshield_o2", [
  ("C", "met2_vpp", «met2_vpp»), ("M", "vpp_04p4x04p6_m1m2_noshield_o2", «vpp_04p4x04p6_m1m2_noshield_o2»),
  ("B", "vpp_sub", «vpp_sub»)]⟩

/-- sky130.lvs 2351. -/
def device66 : DeviceRule := ⟨"VPP3Extractor", "sky130_fd_pr__cap_vpp_04p4x04p6_m1m2_shieldl1", [
  ("C", "met2_vpp", «met2_vpp»), ("M", "vpp_04p4x04p6_m1m2_shieldl1", «vpp_04p4x04p6_m1m2_shieldl1»),
  ("B", "vpp_sub", «vpp_sub»)]⟩

/-- sky130.lvs 2355. -/
def device67 : DeviceRule := ⟨"VPP3Extractor", "sky130_fd_pr__cap_vpp_05p9x05p9_m1m2m3m4_shieldl1_wafflecap", [
  ("C", "met2_vpp", «met2_vpp»),
  ("M", "vpp_05p9x05p9_m1m2m3m4_shieldl1_wafflecap", «vpp_05p9x05p9_m1m2m3m4_shieldl1_wafflecap»),
  ("B", "vpp_sub", «vpp_sub»)]⟩

/-- sky130.lvs 2359. -/
def device68 : DeviceRule := ⟨"VPP4Extractor", "sky130_fd_pr__cap_vpp_06p8x06p1_l1m1m2m3_shieldpom4", [
  ("C1", "met2_vpp", «met2_vpp»), ("C2", "met4_vpp", «met4_vpp»),
  ("M", "vpp_06p8x06p1_l1m1m2m3_shieldpom4", «vpp_06p8x06p1_l1m1m2m3_shieldpom4»), ("B", "vpp_sub", «vpp_sub»)]⟩

/-- sky130.lvs 2363. -/
def device69 : DeviceRule := ⟨"VPP4Extractor", "sky130_fd_pr__cap_vpp_06p8x06p1_m1m2m3_shieldl1m4", [
  ("C1", "met2_vpp", «met2_vpp»), ("C2", "met4_vpp", «met4_vpp»),
  ("M", "vpp_06p8x06p1_m1m2m3_shieldl1m4", «vpp_06p8x06p1_m1m2m3_shieldl1m4»), ("B", "vpp_sub", «vpp_sub»)]⟩

/-- sky130.lvs 2367. -/
def device70 : DeviceRule := ⟨"VPP3Extractor", "sky130_fd_pr__cap_vpp_08p6x07p8_l1m1m2_noshield", [
  ("C", "met2_vpp", «met2_vpp»), ("M", "vpp_08p6x07p8_l1m1m2_noshield", «vpp_08p6x07p8_l1m1m2_noshield»),
  ("B", "vpp_sub", «vpp_sub»)]⟩

/-- sky130.lvs 2371. -/
def device71 : DeviceRule := ⟨"VPP3Extractor", "sky130_fd_pr__cap_vpp_08p6x07p8_l1m1m2_noshield_o2subcell", [
  ("C", "met2_vpp", «met2_vpp»),
  ("M", "vpp_08p6x07p8_l1m1m2_noshield_o2subcell", «vpp_08p6x07p8_l1m1m2_noshield_o2subcell»),
  ("B", "vpp_sub", «vpp_sub»)]⟩

/-- sky130.lvs 2375. -/
def device72 : DeviceRule := ⟨"VPP4Extractor", "sky130_fd_pr__cap_vpp_08p6x07p8_l1m1m2_shieldpo_floatm3", [
  ("C1", "met2_vpp", «met2_vpp»), ("C2", "met3_vpp", «met3_vpp»),
  ("M", "vpp_08p6x07p8_l1m1m2_shieldpo_floatm3", «vpp_08p6x07p8_l1m1m2_shieldpo_floatm3»),
  ("B", "vpp_sub", «vpp_sub»)]⟩

/-- sky130.lvs 2379. -/
def device73 : DeviceRule := ⟨"VPP3Extractor", "sky130_fd_pr__cap_vpp_08p6x07p8_m1m2m3_shieldl1", [
  ("C", "met2_vpp", «met2_vpp»), ("M", "vpp_08p6x07p8_m1m2m3_shieldl1", «vpp_08p6x07p8_m1m2m3_shieldl1»),
  ("B", "vpp_sub", «vpp_sub»)]⟩

/-- sky130.lvs 2383. -/
def device74 : DeviceRule := ⟨"VPP4Extractor", "sky130_fd_pr__cap_vpp_08p6x07p8_m1m2m3_shieldl1m5_floatm4", [
  ("C1", "met2_vpp", «met2_vpp»), ("C2", "met5_vpp", «met5_vpp»),
  ("M", "vpp_08p6x07p8_m1m2m3_shieldl1m5_floatm4", «vpp_08p6x07p8_m1m2m3_shieldl1m5_floatm4»),
  ("B", "vpp_sub", «vpp_sub»)]⟩

/-- sky130.lvs 2387. -/
def device75 : DeviceRule := ⟨"VPP3Extractor", "sky130_fd_pr__cap_vpp_08p6x07p8_m1m2_noshield", [
  ("C", "met2_vpp", «met2_vpp»), ("M", "vpp_08p6x07p8_m1m2_noshield", «vpp_08p6x07p8_m1m2_noshield»),
  ("B", "vpp_sub", «vpp_sub»)]⟩

/-- sky130.lvs 2391. -/
def device76 : DeviceRule := ⟨"VPP3Extractor", "sky130_fd_pr__cap_vpp_08p6x07p8_m1m2_shieldl1", [
  ("C", "met2_vpp", «met2_vpp»), ("M", "vpp_08p6x07p8_m1m2_shieldl1", «vpp_08p6x07p8_m1m2_shieldl1»),
  ("B", "vpp_sub", «vpp_sub»)]⟩

/-- sky130.lvs 2395. -/
def device77 : DeviceRule := ⟨"VPP3Extractor", "sky130_fd_pr__cap_vpp_11p3x11p3_m1m2m3m4_shieldl1_wafflecap", [
  ("C", "met2_vpp", «met2_vpp»),
  ("M", "vpp_11p3x11p3_m1m2m3m4_shieldl1_wafflecap", «vpp_11p3x11p3_m1m2m3m4_shieldl1_wafflecap»),
  ("B", "vpp_sub", «vpp_sub»)]⟩

/-- sky130.lvs 2399. -/
def device78 : DeviceRule := ⟨"VPP3NHVExtractor", "sky130_fd_pr__cap_vpp_11p3x11p8_l1m1m2m3m4_shieldm5_nhv", [
  ("MARKER", "vpp_11p3x11p8_l1m1m2m3m4_shieldm5_nhv", «vpp_11p3x11p8_l1m1m2m3m4_shieldm5_nhv»),
  ("tA", "met2_vpp", «met2_vpp»), ("tB", "met1_vpp", «met1_vpp»), ("tW", "met5_vpp", «met5_vpp»)]⟩

/-- sky130.lvs 2404. -/
def device79 : DeviceRule := ⟨"VPP4Extractor", "sky130_fd_pr__cap_vpp_11p5x11p7_l1m1m2m3m4_shieldm5", [
  ("C1", "met2_vpp", «met2_vpp»), ("C2", "met5_vpp", «met5_vpp»),
  ("M", "vpp_11p5x11p7_l1m1m2m3m4_shieldm5", «vpp_11p5x11p7_l1m1m2m3m4_shieldm5»), ("B", "vpp_sub", «vpp_sub»)]⟩

/-- sky130.lvs 2408. -/
def device80 : DeviceRule := ⟨"VPP4Extractor", "sky130_fd_pr__cap_vpp_11p5x11p7_l1m1m2m3m4_shieldpom5", [
  ("C1", "met2_vpp", «met2_vpp»), ("C2", "met5_vpp", «met5_vpp»),
  ("M", "vpp_11p5x11p7_l1m1m2m3m4_shieldpom5", «vpp_11p5x11p7_l1m1m2m3m4_shieldpom5»), ("B", "vpp_sub", «vpp_sub»)]⟩

/-- sky130.lvs 2428. -/
def device81 : DeviceRule := ⟨"VPP4Extractor", "sky130_fd_pr__cap_vpp_11p5x11p7_l1m1m2m3m4_shieldpom5_x", [
  ("C1", "met2_vpp", «met2_vpp»), ("C2", "met5_vpp", «met5_vpp»),
  ("M", "vpp_11p5x11p7_l1m1m2m3m4_shieldpom5_x", «vpp_11p5x11p7_l1m1m2m3m4_shieldpom5_x»),
  ("B", "vpp_sub", «vpp_sub»)]⟩

/-- sky130.lvs 2432. -/
def device82 : DeviceRule := ⟨"VPP4Extractor", "sky130_fd_pr__cap_vpp_11p5x11p7_l1m1m2m3_shieldm4", [
  ("C1", "met2_vpp", «met2_vpp»), ("C2", "met4_vpp", «met4_vpp»),
  ("M", "vpp_11p5x11p7_l1m1m2m3_shieldm4", «vpp_11p5x11p7_l1m1m2m3_shieldm4»), ("B", "vpp_sub", «vpp_sub»)]⟩

/-- sky130.lvs 2436. -/
def device83 : DeviceRule := ⟨"VPP4Extractor", "sky130_fd_pr__cap_vpp_11p5x11p7_l1m1m2m3_shieldpom4", [
  ("C1", "met2_vpp", «met2_vpp»), ("C2", "met4_vpp", «met4_vpp»),
  ("M", "vpp_11p5x11p7_l1m1m2m3_shieldpom4", «vpp_11p5x11p7_l1m1m2m3_shieldpom4»), ("B", "vpp_sub", «vpp_sub»)]⟩

/-- sky130.lvs 2440. -/
def device84 : DeviceRule := ⟨"VPP3Extractor", "sky130_fd_pr__cap_vpp_11p5x11p7_l1m1m2_noshield", [
  ("C", "met2_vpp", «met2_vpp»), ("M", "vpp_11p5x11p7_l1m1m2_noshield", «vpp_11p5x11p7_l1m1m2_noshield»),
  ("B", "vpp_sub", «vpp_sub»)]⟩

/-- sky130.lvs 2444. -/
def device85 : DeviceRule := ⟨"VPP4Extractor", "sky130_fd_pr__cap_vpp_11p5x11p7_l1m1m2_shieldpom3", [
  ("C1", "met2_vpp", «met2_vpp»), ("C2", "met3_vpp", «met3_vpp»),
  ("M", "vpp_11p5x11p7_l1m1m2_shieldpom3", «vpp_11p5x11p7_l1m1m2_shieldpom3»), ("B", "vpp_sub", «vpp_sub»)]⟩

/-- sky130.lvs 2448. -/
def device86 : DeviceRule := ⟨"VPP4Extractor", "sky130_fd_pr__cap_vpp_11p5x11p7_m1m2m3m4_shieldl1m5", [
  ("C1", "met2_vpp", «met2_vpp»), ("C2", "met5_vpp", «met5_vpp»),
  ("M", "vpp_11p5x11p7_m1m2m3m4_shieldl1m5", «vpp_11p5x11p7_m1m2m3m4_shieldl1m5»), ("B", "vpp_sub", «vpp_sub»)]⟩

/-- sky130.lvs 2452. -/
def device87 : DeviceRule := ⟨"VPP4Extractor", "sky130_fd_pr__cap_vpp_11p5x11p7_m1m2m3m4_shieldm5", [
  ("C1", "met2_vpp", «met2_vpp»), ("C2", "met5_vpp", «met5_vpp»),
  ("M", "vpp_11p5x11p7_m1m2m3m4_shieldm5", «vpp_11p5x11p7_m1m2m3m4_shieldm5»), ("B", "vpp_sub", «vpp_sub»)]⟩

/-- sky130.lvs 2456. -/
def device88 : DeviceRule := ⟨"VPP3Extractor", "sky130_fd_pr__cap_vpp_11p5x11p7_m1m2m3_shieldl1", [
  ("C", "met2_vpp", «met2_vpp»), ("M", "vpp_11p5x11p7_m1m2m3_shieldl1", «vpp_11p5x11p7_m1m2m3_shieldl1»),
  ("B", "vpp_sub", «vpp_sub»)]⟩

/-- sky130.lvs 2460. -/
def device89 : DeviceRule := ⟨"VPP4Extractor", "sky130_fd_pr__cap_vpp_11p5x11p7_m1m2m3_shieldl1m5_floatm4", [
  ("C1", "met2_vpp", «met2_vpp»), ("C2", "met5_vpp", «met5_vpp»),
  ("M", "vpp_11p5x11p7_m1m2m3_shieldl1m5_floatm4", «vpp_11p5x11p7_m1m2m3_shieldl1m5_floatm4»),
  ("B", "vpp_sub", «vpp_sub»)]⟩

/-- sky130.lvs 2464. -/
def device90 : DeviceRule := ⟨"VPP3Extractor", "sky130_fd_pr__cap_vpp_11p5x11p7_m1m2_noshield", [
  ("C", "met2_vpp", «met2_vpp»), ("M", "vpp_11p5x11p7_m1m2_noshield", «vpp_11p5x11p7_m1m2_noshield»),
  ("B", "vpp_sub", «vpp_sub»)]⟩

/-- sky130.lvs 2468. -/
def device91 : DeviceRule := ⟨"VPP3Extractor", "sky130_fd_pr__cap_vpp_11p5x11p7_m1m2_shieldl1", [
  ("C", "met2_vpp", «met2_vpp»), ("M", "vpp_11p5x11p7_m1m2_shieldl1", «vpp_11p5x11p7_m1m2_shieldl1»),
  ("B", "vpp_sub", «vpp_sub»)]⟩

/-- sky130.lvs 2472. -/
def device92 : DeviceRule := ⟨"VPP3Extractor", "sky130_fd_pr__cap_vpp_11p5x11p7_m1m4_noshield", [
  ("C", "met2_vpp", «met2_vpp»), ("M", "vpp_11p5x11p7_m1m4_noshield", «vpp_11p5x11p7_m1m4_noshield»),
  ("B", "vpp_sub", «vpp_sub»)]⟩

/-- sky130.lvs 2476. -/
def device93 : DeviceRule := ⟨"VPP3Extractor", "sky130_fd_pr__cap_vpp_11p5x11p7_pol1m1m2m3m4m5_noshield", [
  ("C", "met2_vpp", «met2_vpp»),
  ("M", "vpp_11p5x11p7_pol1m1m2m3m4m5_noshield", «vpp_11p5x11p7_pol1m1m2m3m4m5_noshield»),
  ("B", "vpp_sub", «vpp_sub»)]⟩

/-- sky130.lvs 2480. -/
def device94 : DeviceRule := ⟨"VPP3Extractor", "sky130_fd_pr__cap_vpp_11p5x23p1_pol1m1m2m3m4m5_noshield", [
  ("C", "met2_vpp", «met2_vpp»),
  ("M", "vpp_11p5x23p1_pol1m1m2m3m4m5_noshield", «vpp_11p5x23p1_pol1m1m2m3m4m5_noshield»),
  ("B", "vpp_sub", «vpp_sub»)]⟩

/-- sky130.lvs 2484. -/
def device95 : DeviceRule := ⟨"VPP3Extractor", "sky130_fd_pr__cap_vpp_22p5x11p7_pol1m1m2m3m4m5_noshield", [
  ("C", "met2_vpp", «met2_vpp»),
  ("M", "vpp_22p5x11p7_pol1m1m2m3m4m5_noshield", «vpp_22p5x11p7_pol1m1m2m3m4m5_noshield»),
  ("B", "vpp_sub", «vpp_sub»)]⟩

/-- sky130.lvs 2488. -/
def device96 : DeviceRule := ⟨"VPP3Extractor", "sky130_fd_pr__cap_vpp_22p5x23p1_pol1m1m2m3m4m5_noshield", [
  ("C", "met2_vpp", «met2_vpp»),
  ("M", "vpp_22p5x23p1_pol1m1m2m3m4m5_noshield", «vpp_22p5x23p1_pol1m1m2m3m4m5_noshield»),
  ("B", "vpp_sub", «vpp_sub»)]⟩

/-- sky130.lvs 2492. -/
def device97 : DeviceRule := ⟨"VPP3Extractor", "sky130_fd_pr__cap_vpp_33p6x11p7_pol1m1m2m3m4m5_noshield", [
  ("C", "met2_vpp", «met2_vpp»),
  ("M", "vpp_33p6x11p7_pol1m1m2m3m4m5_noshield", «vpp_33p6x11p7_pol1m1m2m3m4m5_noshield»),
  ("B", "vpp_sub", «vpp_sub»)]⟩

/-- sky130.lvs 2496. -/
def device98 : DeviceRule := ⟨"VPP3Extractor", "sky130_fd_pr__cap_vpp_33p6x23p1_pol1m1m2m3m4m5_noshield", [
  ("C", "met2_vpp", «met2_vpp»),
  ("M", "vpp_33p6x23p1_pol1m1m2m3m4m5_noshield", «vpp_33p6x23p1_pol1m1m2m3m4m5_noshield»),
  ("B", "vpp_sub", «vpp_sub»)]⟩

/-- sky130.lvs 2500. -/
def device99 : DeviceRule := ⟨"VPP3Extractor", "sky130_fd_pr__cap_vpp_44p7x11p7_pol1m1m2m3m4m5_noshield", [
  ("C", "met2_vpp", «met2_vpp»),
  ("M", "vpp_44p7x11p7_pol1m1m2m3m4m5_noshield", «vpp_44p7x11p7_pol1m1m2m3m4m5_noshield»),
  ("B", "vpp_sub", «vpp_sub»)]⟩

/-- sky130.lvs 2504. -/
def device100 : DeviceRule := ⟨"VPP3Extractor", "sky130_fd_pr__cap_vpp_44p7x23p1_pol1m1m2m3m4m5_noshield", [
  ("C", "met2_vpp", «met2_vpp»),
  ("M", "vpp_44p7x23p1_pol1m1m2m3m4m5_noshield", «vpp_44p7x23p1_pol1m1m2m3m4m5_noshield»),
  ("B", "vpp_sub", «vpp_sub»)]⟩

/-- sky130.lvs 2508. -/
def device101 : DeviceRule := ⟨"VPP3Extractor", "sky130_fd_pr__cap_vpp_55p8x11p7_pol1m1m2m3m4m5_noshield", [
  ("C", "met2_vpp", «met2_vpp»),
  ("M", "vpp_55p8x11p7_pol1m1m2m3m4m5_noshield", «vpp_55p8x11p7_pol1m1m2m3m4m5_noshield»),
  ("B", "vpp_sub", «vpp_sub»)]⟩

/-- sky130.lvs 2512. -/
def device102 : DeviceRule := ⟨"VPP3Extractor", "sky130_fd_pr__cap_vpp_55p8x11p7_pol1m1m2m3m4m5_noshield_m5pullin", [
  ("C", "met2_vpp", «met2_vpp»),
  ("M", "vpp_55p8x11p7_pol1m1m2m3m4m5_noshield_m5pullin", «vpp_55p8x11p7_pol1m1m2m3m4m5_noshield_m5pullin»),
  ("B", "vpp_sub", «vpp_sub»)]⟩

/-- sky130.lvs 2516. -/
def device103 : DeviceRule := ⟨"VPP3Extractor", "sky130_fd_pr__cap_vpp_55p8x23p1_pol1m1m2m3m4m5_noshield", [
  ("C", "met2_vpp", «met2_vpp»),
  ("M", "vpp_55p8x23p1_pol1m1m2m3m4m5_noshield", «vpp_55p8x23p1_pol1m1m2m3m4m5_noshield»),
  ("B", "vpp_sub", «vpp_sub»)]⟩

/-- sky130.lvs 2520. -/
def device104 : DeviceRule := ⟨"VPP3Extractor", "sky130_fd_pr__cap_vpp_55p8x23p1_pol1m1m2m3m4m5_noshield_m5pullin", [
  ("C", "met2_vpp", «met2_vpp»),
  ("M", "vpp_55p8x23p1_pol1m1m2m3m4m5_noshield_m5pullin", «vpp_55p8x23p1_pol1m1m2m3m4m5_noshield_m5pullin»),
  ("B", "vpp_sub", «vpp_sub»)]⟩

/-- sky130.lvs 2524. -/
def device105 : DeviceRule := ⟨"VPP3Extractor", "sky130_fd_pr__cap_vpp_55p8x23p1_pol1m1m2m3m4m5_noshield_test", [
  ("C", "met2_vpp", «met2_vpp»),
  ("M", "vpp_55p8x23p1_pol1m1m2m3m4m5_noshield_test", «vpp_55p8x23p1_pol1m1m2m3m4m5_noshield_test»),
  ("B", "vpp_sub", «vpp_sub»)]⟩

/-- sky130.lvs 2535. -/
def device106 : DeviceRule := ⟨"mos4", "sky130_fd_bs_flash__special_sonosfet_star", [
  ("SD", "sonos_nsd", «sonos_nsd»), ("G", "sonos_gate", «sonos_gate»), ("tS", "sonos_nsd", «sonos_nsd»),
  ("tD", "sonos_nsd", «sonos_nsd»), ("tG", "poly_con", «poly_con»), ("W", "sub", «sub»)]⟩

/-- The devices, in the order of the script. -/
def devices : List DeviceRule := [
  device0, device1, device2, device3, device4, device5, device6, device7, device8, device9, device10, device11,
  device12, device13, device14, device15, device16, device17, device18, device19, device20, device21, device22,
  device23, device24, device25, device26, device27, device28, device29, device30, device31, device32, device33,
  device34, device35, device36, device37, device38, device39, device40, device41, device42, device43, device44,
  device45, device46, device47, device48, device49, device50, device51, device52, device53, device54, device55,
  device56, device57, device58, device59, device60, device61, device62, device63, device64, device65, device66,
  device67, device68, device69, device70, device71, device72, device73, device74, device75, device76, device77,
  device78, device79, device80, device81, device82, device83, device84, device85, device86, device87, device88,
  device89, device90, device91, device92, device93, device94, device95, device96, device97, device98, device99,
  device100, device101, device102, device103, device104, device105, device106]

end Verif.LvsRules.Sky130A
