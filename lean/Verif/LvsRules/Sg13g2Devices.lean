import Verif.LvsRules.Device
import Verif.LvsRules.Sg13g2

/-!
# Devices of the LVS script of Sg13g2

Translated by `tools/gen_lvs.py` from `pdk/ihp_sg13g2/libs.tech/kpex/sg13g2.lvs` and the files it includes: the statements `extract_devices`, and every
assignment that they depend on and that is not in `Verif.LvsRules.Sg13g2`. A second assignment to a variable has the suffix `_2`.
-/

namespace Verif.LvsRules.Sg13g2

/-- `ngate_lv_base = ngate.not(thickgateox_drw)`; rule_decks/general_derivations.lvs 68. -/
def «ngate_lv_base» : Expr := .diff «ngate» «thickgateox_drw_2»

/-- `pgate_lv_base = pgate.not(thickgateox_drw)`; rule_decks/general_derivations.lvs 69. -/
def «pgate_lv_base» : Expr := .diff «pgate» «thickgateox_drw_2»

/-- `pgate_hv_base = pgate.and(thickgateox_drw)`; rule_decks/general_derivations.lvs 71. -/
def «pgate_hv_base» : Expr := .and «pgate» «thickgateox_drw_2»

/-- `ntap_holes = ntap.holes`; rule_decks/general_derivations.lvs 92. -/
def «ntap_holes» : Expr := .made "ntap.holes" «ntap»

/-- `mos_exclude = pwell_block.join(nsd_drw).join(trans_drw)`; rule_decks/mos_derivations.lvs 26. -/
def «mos_exclude» : Expr := .or (.or «pwell_block_2» «nsd_drw_2») «trans_drw_2»

/-- `rfnmos_exc = nwell_drw.join(psd_drw).join(mos_exclude)`; rule_decks/mos_derivations.lvs 35. -/
def «rfnmos_exc» : Expr := .or (.or «nwell_drw_2» «psd_drw_2») «mos_exclude»

/-- `rfpmos_exc = pwell.join(nwell_holes).join(mos_exclude)`; rule_decks/mos_derivations.lvs 36. -/
def «rfpmos_exc» : Expr := .or (.or «pwell» «nwell_holes») «mos_exclude»

/-- `rfnmos_mk_gen = ptap.join(ptap_holes)`; rule_decks/mos_derivations.lvs 45. -/
def «rfnmos_mk_gen» : Expr := .or «ptap» «ptap_holes»

/-- `rfnmos_mk = rfnmos_mk_gen.interacting(text_drw.texts(rfnmos_patt))`; rule_decks/mos_derivations.lvs 46. -/
def «rfnmos_mk» : Expr := .some "rfnmos_mk_gen.interacting(text_drw.texts(rfnmos_patt))" «rfnmos_mk_gen»

/-- `rfnmoshv_mk = rfnmos_mk_gen.interacting(text_drw.texts(rfnmoshv_patt))`; rule_decks/mos_derivations.lvs 47. -/
def «rfnmoshv_mk» : Expr := .some "rfnmos_mk_gen.interacting(text_drw.texts(rfnmoshv_patt))" «rfnmos_mk_gen»

/-- `rfpmos_mk_gen = ntap.join(ntap_holes)`; rule_decks/mos_derivations.lvs 49. -/
def «rfpmos_mk_gen» : Expr := .or «ntap» «ntap_holes»

/-- `rfpmos_mk = rfpmos_mk_gen.interacting(text_drw.texts(rfpmos_patt))`; rule_decks/mos_derivations.lvs 50. -/
def «rfpmos_mk» : Expr := .some "rfpmos_mk_gen.interacting(text_drw.texts(rfpmos_patt))" «rfpmos_mk_gen»

/-- `rfpmoshv_mk = rfpmos_mk_gen.interacting(text_drw.texts(rfpmoshv_patt))`; rule_decks/mos_derivations.lvs 51. -/
def «rfpmoshv_mk» : Expr := .some "rfpmos_mk_gen.interacting(text_drw.texts(rfpmoshv_patt))" «rfpmos_mk_gen»

/-- `nmos_exc = rfnmos_exc.join(rfnmos_mk)`; rule_decks/mos_derivations.lvs 60. -/
def «nmos_exc» : Expr := .or «rfnmos_exc» «rfnmos_mk»

/-- `nmoshv_exc = rfnmos_exc.join(rfnmoshv_mk)`; rule_decks/mos_derivations.lvs 61. -/
def «nmoshv_exc» : Expr := .or «rfnmos_exc» «rfnmoshv_mk»

/-- `ngate_lv = ngate_lv_base.not(nmos_exc)`; rule_decks/mos_derivations.lvs 64. -/
def «ngate_lv» : Expr := .diff «ngate_lv_base» «nmos_exc»

/-- `ngate_hv = ngate_hv_base.not(nmoshv_exc)`; rule_decks/mos_derivations.lvs 67. -/
def «ngate_hv» : Expr := .diff «ngate_hv_base» «nmoshv_exc»

/-- `pmos_exc = rfpmos_exc.join(rfpmos_mk)`; rule_decks/mos_derivations.lvs 76. -/
def «pmos_exc» : Expr := .or «rfpmos_exc» «rfpmos_mk»

/-- `pmoshv_exc = rfpmos_exc.join(rfpmoshv_mk)`; rule_decks/mos_derivations.lvs 77. -/
def «pmoshv_exc» : Expr := .or «rfpmos_exc» «rfpmoshv_mk»

/-- `pgate_lv = pgate_lv_base.not(pmos_exc)`; rule_decks/mos_derivations.lvs 80. -/
def «pgate_lv» : Expr := .diff «pgate_lv_base» «pmos_exc»

/-- `pgate_hv = pgate_hv_base.not(pmoshv_exc)`; rule_decks/mos_derivations.lvs 83. -/
def «pgate_hv» : Expr := .diff «pgate_hv_base» «pmoshv_exc»

/-- `rfngate_lv = ngate_lv_base.and(rfnmos_mk).not(rfnmos_exc)`; rule_decks/rfmos_derivations.lvs 32. -/
def «rfngate_lv» : Expr := .diff (.and «ngate_lv_base» «rfnmos_mk») «rfnmos_exc»

/-- `rfngate_hv = ngate_hv_base.and(rfnmoshv_mk).not(rfnmos_exc)`; rule_decks/rfmos_derivations.lvs 35. -/
def «rfngate_hv» : Expr := .diff (.and «ngate_hv_base» «rfnmoshv_mk») «rfnmos_exc»

/-- `rfpgate_lv = pgate_lv_base.and(rfpmos_mk).not(rfpmos_exc)`; rule_decks/rfmos_derivations.lvs 44. -/
def «rfpgate_lv» : Expr := .diff (.and «pgate_lv_base» «rfpmos_mk») «rfpmos_exc»

/-- `rfpgate_hv = pgate_hv_base.and(rfpmoshv_mk).not(rfpmos_exc)`; rule_decks/rfmos_derivations.lvs 47. -/
def «rfpgate_hv» : Expr := .diff (.and «pgate_hv_base» «rfpmoshv_mk») «rfpmos_exc»

/-- `schottcky_sub = ptap.extents.covering(schottcky_p).covering(schottcky_n)`; rule_decks/diode_derivations.lvs 64. -/
def «schottcky_sub» : Expr := .some "ptap.extents.covering(schottcky_p).covering(schottcky_n)" (.some "ptap.extents.covering(schottcky_p)" (.made "ptap.extents" «ptap»))

/-- `res_metal1 = metal1.and(metal1_res)`; rule_decks/res_derivations.lvs 57. -/
def «res_metal1» : Expr := .and «metal1» «metal1_res_2»

/-- `res_metal2 = metal2.and(metal2_res)`; rule_decks/res_derivations.lvs 60. -/
def «res_metal2» : Expr := .and «metal2» «metal2_res_2»

/-- `res_metal3 = metal3.and(metal3_res)`; rule_decks/res_derivations.lvs 63. -/
def «res_metal3» : Expr := .and «metal3» «metal3_res_2»

/-- `res_metal4 = metal4.and(metal4_res)`; rule_decks/res_derivations.lvs 66. -/
def «res_metal4» : Expr := .and «metal4» «metal4_res_2»

/-- `res_metal5 = metal5.and(metal5_res)`; rule_decks/res_derivations.lvs 69. -/
def «res_metal5» : Expr := .and «metal5» «metal5_res_2»

/-- `res_topmetal1 = topmetal1.and(topmetal1_res)`; rule_decks/res_derivations.lvs 72. -/
def «res_topmetal1» : Expr := .and «topmetal1» «topmetal1_res_2»

/-- `res_topmetal2 = topmetal2.and(topmetal2_res)`; rule_decks/res_derivations.lvs 75. -/
def «res_topmetal2» : Expr := .and «topmetal2» «topmetal2_res_2»

/-- `cmim_dev = mim_drw.covering(cmim_top).and(cmim_btm)`; rule_decks/cap_derivations.lvs 39. -/
def «cmim_dev» : Expr := .and (.some "mim_drw.covering(cmim_top)" «mim_drw_2») «cmim_btm»

/-- `rfmeas_mk = metal5_con.overlapping(rfmim_btm).and(rfmim_area)`; rule_decks/cap_derivations.lvs 47. -/
def «rfmeas_mk» : Expr := .and (.some "metal5_con.overlapping(rfmim_btm)" «metal5_con») «rfmim_area»

/-- `varicap_dev_mk = thickgateox_drw.covering(varicap_core).interacting(varicap_ports)`; rule_decks/cap_derivations.lvs 64. -/
def «varicap_dev_mk» : Expr := .some "thickgateox_drw.covering(varicap_core).interacting(varicap_ports)" (.some "thickgateox_drw.covering(varicap_core)" «thickgateox_drw_2»)

/-- `ind2_core = ind_core_.interacting(ind_port_la, 1).interacting(ind_port_lb, 1)`; rule_decks/ind_derivations.lvs 51. -/
def «ind2_core» : Expr := .some "ind_core_.interacting(ind_port_la,1).interacting(ind_port_lb,1)" (.some "ind_core_.interacting(ind_port_la,1)" «ind_core_»)

/-- `ind2_mk_ = ind_drw.interacting(text_drw.texts(ind2_patt))`; rule_decks/ind_derivations.lvs 52. -/
def «ind2_mk_» : Expr := .some "ind_drw.interacting(text_drw.texts(ind2_patt))" «ind_drw_2»

/-- `ind2_mk = ind2_mk_.interacting(ind2_core).interacting(ind2_ports).not_interacting(ind_port_lc)`; rule_decks/ind_derivations.lvs 53. -/
def «ind2_mk» : Expr := .some "ind2_mk_.interacting(ind2_core).interacting(ind2_ports).not_interacting(ind_port_lc)" (.some "ind2_mk_.interacting(ind2_core).interacting(ind2_ports)" (.some "ind2_mk_.interacting(ind2_core)" «ind2_mk_»))

/-- `ind3_core = ind_core_.interacting(ind_lb_tm1, 1).interacting(ind_lb_tm1, 1).interacting(ind_lc_tm2, 1)`; rule_decks/ind_derivations.lvs 60. -/
def «ind3_core» : Expr := .some "ind_core_.interacting(ind_lb_tm1,1).interacting(ind_lb_tm1,1).interacting(ind_lc_tm2,1)" (.some "ind_core_.interacting(ind_lb_tm1,1).interacting(ind_lb_tm1,1)" (.some "ind_core_.interacting(ind_lb_tm1,1)" «ind_core_»))

/-- `ind3_mk_ = ind_drw.interacting(text_drw.texts(ind3_patt))`; rule_decks/ind_derivations.lvs 61. -/
def «ind3_mk_» : Expr := .some "ind_drw.interacting(text_drw.texts(ind3_patt))" «ind_drw_2»

/-- `ind3_mk = ind3_mk_.interacting(ind3_core).interacting(ind3_ports)`; rule_decks/ind_derivations.lvs 62. -/
def «ind3_mk» : Expr := .some "ind3_mk_.interacting(ind3_core).interacting(ind3_ports)" (.some "ind3_mk_.interacting(ind3_core)" «ind3_mk_»)

/-- rule_decks/mos_extraction.lvs 35. -/
def device0 : DeviceRule := ⟨"mos4", "sg13_lv_nmos", [
  ("SD", "nsd_fet", «nsd_fet»), ("G", "ngate_lv", «ngate_lv»), ("tS", "nsd_fet", «nsd_fet»),
  ("tD", "nsd_fet", «nsd_fet»), ("tG", "poly_con", «poly_con»), ("W", "pwell", «pwell»)]⟩

/-- rule_decks/mos_extraction.lvs 45. -/
def device1 : DeviceRule := ⟨"mos4", "sg13_hv_nmos", [
  ("SD", "nsd_fet", «nsd_fet»), ("G", "ngate_hv", «ngate_hv»), ("tS", "nsd_fet", «nsd_fet»),
  ("tD", "nsd_fet", «nsd_fet»), ("tG", "poly_con", «poly_con»), ("W", "pwell", «pwell»)]⟩

/-- rule_decks/mos_extraction.lvs 61. -/
def device2 : DeviceRule := ⟨"mos4", "sg13_lv_pmos", [
  ("SD", "psd_fet", «psd_fet»), ("G", "pgate_lv", «pgate_lv»), ("tS", "psd_fet", «psd_fet»),
  ("tD", "psd_fet", «psd_fet»), ("tG", "poly_con", «poly_con»), ("W", "nwell_drw", «nwell_drw_2»)]⟩

/-- rule_decks/mos_extraction.lvs 71. -/
def device3 : DeviceRule := ⟨"mos4", "sg13_hv_pmos", [
  ("SD", "psd_fet", «psd_fet»), ("G", "pgate_hv", «pgate_hv»), ("tS", "psd_fet", «psd_fet»),
  ("tD", "psd_fet", «psd_fet»), ("tG", "poly_con", «poly_con»), ("W", "nwell_drw", «nwell_drw_2»)]⟩

/-- rule_decks/rfmos_extraction.lvs 32. -/
def device4 : DeviceRule := ⟨"mos4", "rfnmos", [
  ("SD", "nsd_fet", «nsd_fet»), ("G", "rfngate_lv", «rfngate_lv»), ("W", "pwell", «pwell»),
  ("tS", "nsd_fet", «nsd_fet»), ("tD", "nsd_fet", «nsd_fet»), ("tG", "poly_con", «poly_con»), ("tW", "ptap", «ptap»)]⟩

/-- rule_decks/rfmos_extraction.lvs 44. -/
def device5 : DeviceRule := ⟨"mos4", "rfnmoshv", [
  ("SD", "nsd_fet", «nsd_fet»), ("G", "rfngate_hv", «rfngate_hv»), ("W", "pwell", «pwell»),
  ("tS", "nsd_fet", «nsd_fet»), ("tD", "nsd_fet", «nsd_fet»), ("tG", "poly_con", «poly_con»), ("tW", "ptap", «ptap»)]⟩

/-- rule_decks/rfmos_extraction.lvs 60. -/
def device6 : DeviceRule := ⟨"mos4", "rfpmos", [
  ("SD", "psd_fet", «psd_fet»), ("G", "rfpgate_lv", «rfpgate_lv»), ("tS", "psd_fet", «psd_fet»),
  ("tD", "psd_fet", «psd_fet»), ("tG", "poly_con", «poly_con»), ("W", "nwell_drw", «nwell_drw_2»),
  ("tW", "ntap", «ntap»)]⟩

/-- rule_decks/rfmos_extraction.lvs 72. -/
def device7 : DeviceRule := ⟨"mos4", "rfpmoshv", [
  ("SD", "psd_fet", «psd_fet»), ("G", "rfpgate_hv", «rfpgate_hv»), ("tS", "psd_fet", «psd_fet»),
  ("tD", "psd_fet", «psd_fet»), ("tG", "poly_con", «poly_con»), ("W", "nwell_drw", «nwell_drw_2»),
  ("tW", "ntap", «ntap»)]⟩

/-- rule_decks/bjt_extraction.lvs 33. -/
def device8 : DeviceRule := ⟨"bjt4", "npn13G2", [
  ("C", "npn13G2_c", «npn13G2_c»), ("B", "npn13G2_b", «npn13G2_b»), ("E", "npn13G2_e", «npn13G2_e»),
  ("S", "npn_sub", «npn_sub»), ("tC", "npn13G2_tc", «npn13G2_tc»), ("tB", "npn13G2_tb", «npn13G2_tb»),
  ("tE", "npn13G2_te", «npn13G2_te»), ("tS", "npn_sub", «npn_sub»)]⟩

/-- rule_decks/bjt_extraction.lvs 45. -/
def device9 : DeviceRule := ⟨"bjt4", "npn13G2l", [
  ("C", "npn13G2l_c", «npn13G2l_c»), ("B", "npn13G2l_b", «npn13G2l_b»), ("E", "npn13G2l_e", «npn13G2l_e»),
  ("S", "npn_sub", «npn_sub»), ("tC", "npn13G2l_tc", «npn13G2l_tc»), ("tB", "npn13G2l_tb", «npn13G2l_tb»),
  ("tE", "npn13G2l_te", «npn13G2l_te»), ("tS", "npn_sub", «npn_sub»)]⟩

/-- rule_decks/bjt_extraction.lvs 57. -/
def device10 : DeviceRule := ⟨"bjt4", "npn13G2v", [
  ("C", "npn13G2v_c", «npn13G2v_c»), ("B", "npn13G2v_b", «npn13G2v_b»), ("E", "npn13G2v_e", «npn13G2v_e»),
  ("S", "npn_sub", «npn_sub»), ("tC", "npn13G2v_tc", «npn13G2v_tc»), ("tB", "npn13G2v_tb", «npn13G2v_tb»),
  ("tE", "npn13G2v_te", «npn13G2v_te»), ("tS", "npn_sub", «npn_sub»)]⟩

/-- rule_decks/bjt_extraction.lvs 76. -/
def device11 : DeviceRule := ⟨"bjt3", "pnpMPA", [
  ("C", "pnp_mpa_c.extents", .made "pnp_mpa_c.extents" «pnp_mpa_c»),
  ("B", "pnp_mpa_b.extents", .made "pnp_mpa_b.extents" «pnp_mpa_b»), ("E", "pnp_mpa_e", «pnp_mpa_e»),
  ("tC", "pnp_mpa_c", «pnp_mpa_c»), ("tB", "pnp_mpa_b", «pnp_mpa_b»), ("tE", "pnp_mpa_e", «pnp_mpa_e»)]⟩

/-- rule_decks/diode_extraction.lvs 28. -/
def device12 : DeviceRule := ⟨"diode", "dantenna", [
  ("N", "dantenna_n", «dantenna_n»), ("P", "dantenna_p", «dantenna_p»)]⟩

/-- rule_decks/diode_extraction.lvs 32. -/
def device13 : DeviceRule := ⟨"diode", "dpantenna", [
  ("N", "dpantenna_n", «dpantenna_n»), ("P", "dpantenna_p", «dpantenna_p»)]⟩

/-- rule_decks/diode_extraction.lvs 36. -/
def device14 : DeviceRule := ⟨"bjt3", "schottky_nbl1", [
  ("C", "schottcky_sub", «schottcky_sub»),
  ("B", "schottcky_n_port.extents", .made "schottcky_n_port.extents" «schottcky_n_port»),
  ("E", "schottcky_p_1x1", «schottcky_p_1x1»), ("tC", "ptap", «ptap»),
  ("tB", "schottcky_n_port", «schottcky_n_port»), ("tE", "schottcky_p_1x1", «schottcky_p_1x1»)]⟩

/-- rule_decks/res_extraction.lvs 32. -/
def device15 : DeviceRule := ⟨"GeneralNTerminalExtractor", "rsil", [
  ("core", "rsil_res", «rsil_res»), ("ports", "rsil_ports", «rsil_ports»),
  ("meas_mk", "polyres_drw", «polyres_drw_2»),
  ("dev_mk", "polyres_drw.interacting(rsil_res)", .some "polyres_drw.interacting(rsil_res)" «polyres_drw_2»),
  ("sub_mk", "pwell.join(nwell_drw)", .or «pwell» «nwell_drw_2»)]⟩

/-- rule_decks/res_extraction.lvs 41. -/
def device16 : DeviceRule := ⟨"GeneralNTerminalExtractor", "rppd", [
  ("core", "rppd_res", «rppd_res»), ("ports", "rppd_ports", «rppd_ports»),
  ("meas_mk", "polyres_drw", «polyres_drw_2»),
  ("dev_mk", "polyres_drw.interacting(rppd_res)", .some "polyres_drw.interacting(rppd_res)" «polyres_drw_2»),
  ("sub_mk", "pwell.join(nwell_drw)", .or «pwell» «nwell_drw_2»)]⟩

/-- rule_decks/res_extraction.lvs 51. -/
def device17 : DeviceRule := ⟨"GeneralNTerminalExtractor", "rhigh", [
  ("core", "rhigh_res", «rhigh_res»), ("ports", "rhigh_ports", «rhigh_ports»),
  ("meas_mk", "polyres_drw", «polyres_drw_2»),
  ("dev_mk", "polyres_drw.interacting(rhigh_res)", .some "polyres_drw.interacting(rhigh_res)" «polyres_drw_2»),
  ("sub_mk", "pwell.join(nwell_drw)", .or «pwell» «nwell_drw_2»)]⟩

/-- rule_decks/res_extraction.lvs 65. -/
def device18 : DeviceRule := ⟨"resistor", "res_metal1", [
  ("R", "res_metal1", «res_metal1»), ("C", "metal1_con", «metal1_con»)]⟩

/-- rule_decks/res_extraction.lvs 69. -/
def device19 : DeviceRule := ⟨"resistor", "res_metal2", [
  ("R", "res_metal2", «res_metal2»), ("C", "metal2_con", «metal2_con»)]⟩

/-- rule_decks/res_extraction.lvs 73. -/
def device20 : DeviceRule := ⟨"resistor", "res_metal3", [
  ("R", "res_metal3", «res_metal3»), ("C", "metal3_con", «metal3_con»)]⟩

/-- rule_decks/res_extraction.lvs 77. -/
def device21 : DeviceRule := ⟨"resistor", "res_metal4", [
  ("R", "res_metal4", «res_metal4»), ("C", "metal4_con", «metal4_con»)]⟩

/-- rule_decks/res_extraction.lvs 81. -/
def device22 : DeviceRule := ⟨"resistor", "res_metal5", [
  ("R", "res_metal5", «res_metal5»), ("C", "metal5_con", «metal5_con»)]⟩

/-- rule_decks/res_extraction.lvs 85. -/
def device23 : DeviceRule := ⟨"resistor", "res_topmetal1", [
  ("R", "res_topmetal1", «res_topmetal1»), ("C", "topmetal1_con", «topmetal1_con»)]⟩

/-- rule_decks/res_extraction.lvs 89. -/
def device24 : DeviceRule := ⟨"resistor", "res_topmetal2", [
  ("R", "res_topmetal2", «res_topmetal2»), ("C", "topmetal2_con", «topmetal2_con»)]⟩

/-- rule_decks/cap_extraction.lvs 28. -/
def device25 : DeviceRule := ⟨"MIMCAPExtractor", "cap_cmim", [
  ("core", "cmim_top", «cmim_top»), ("top_mim", "cmim_top", «cmim_top»), ("btm_mim", "cmim_btm", «cmim_btm»),
  ("meas_mk", "cmim_dev", «cmim_dev»), ("dev_mk", "cmim_dev", «cmim_dev»)]⟩

/-- rule_decks/cap_extraction.lvs 38. -/
def device26 : DeviceRule := ⟨"MIMCAPExtractor", "rfcmim", [
  ("core", "rfmim_top", «rfmim_top»), ("top_mim", "rfmim_top", «rfmim_top»), ("btm_mim", "rfmim_btm", «rfmim_btm»),
  ("dev_mk", "rfmim_area.covering(rfmim_dev)", .some "rfmim_area.covering(rfmim_dev)" «rfmim_area»),
  ("meas_mk", "rfmeas_mk", «rfmeas_mk»), ("sub_mk", "rfmim_sub", «rfmim_sub»)]⟩

/-- rule_decks/cap_extraction.lvs 49. -/
def device27 : DeviceRule := ⟨"GeneralNTerminalExtractor", "sg13_hv_svaricap", [
  ("core", "varicap_core", «varicap_core»), ("ports", "varicap_ports", «varicap_ports»),
  ("meas_mk", "activ", «activ»), ("dev_mk", "varicap_dev_mk", «varicap_dev_mk»),
  ("sub_mk", "varicap_sub", «varicap_sub»)]⟩

/-- rule_decks/esd_extraction.lvs 32. -/
def device28 : DeviceRule := ⟨"bjt3", "diodevdd_2kv", [
  ("C", "diodevdd_2kv_c.extents", .made "diodevdd_2kv_c.extents" «diodevdd_2kv_c»),
  ("B", "diodevdd_2kv_b.extents", .made "diodevdd_2kv_b.extents" «diodevdd_2kv_b»),
  ("E", "diodevdd_2kv_e_1x1", «diodevdd_2kv_e_1x1»), ("tC", "diodevdd_2kv_c", «diodevdd_2kv_c»),
  ("tB", "diodevdd_2kv_b", «diodevdd_2kv_b»), ("tE", "diodevdd_2kv_e_1x1", «diodevdd_2kv_e_1x1»)]⟩

/-- rule_decks/esd_extraction.lvs 41. -/
def device29 : DeviceRule := ⟨"bjt3", "diodevdd_4kv", [
  ("C", "diodevdd_4kv_c.extents", .made "diodevdd_4kv_c.extents" «diodevdd_4kv_c»),
  ("B", "diodevdd_4kv_b.extents", .made "diodevdd_4kv_b.extents" «diodevdd_4kv_b»),
  ("E", "diodevdd_4kv_e_1x1", «diodevdd_4kv_e_1x1»), ("tC", "diodevdd_4kv_c", «diodevdd_4kv_c»),
  ("tB", "diodevdd_4kv_b", «diodevdd_4kv_b»), ("tE", "diodevdd_4kv_e_1x1", «diodevdd_4kv_e_1x1»)]⟩

/-- rule_decks/esd_extraction.lvs 50. -/
def device30 : DeviceRule := ⟨"bjt3", "diodevss_2kv", [
  ("C", "diodevss_2kv_c.extents", .made "diodevss_2kv_c.extents" «diodevss_2kv_c»),
  ("B", "diodevss_2kv_b.extents", .made "diodevss_2kv_b.extents" «diodevss_2kv_b»),
  ("E", "diodevss_2kv_e_1x1", «diodevss_2kv_e_1x1»), ("tC", "diodevss_2kv_c", «diodevss_2kv_c»),
  ("tB", "diodevss_2kv_b", «diodevss_2kv_b»), ("tE", "diodevss_2kv_e_1x1", «diodevss_2kv_e_1x1»)]⟩

/-- rule_decks/esd_extraction.lvs 59. -/
def device31 : DeviceRule := ⟨"bjt3", "diodevss_4kv", [
  ("C", "diodevss_4kv_c.extents", .made "diodevss_4kv_c.extents" «diodevss_4kv_c»),
  ("B", "diodevss_4kv_b.extents", .made "diodevss_4kv_b.extents" «diodevss_4kv_b»),
  ("E", "diodevss_4kv_e_1x1", «diodevss_4kv_e_1x1»), ("tC", "diodevss_4kv_c", «diodevss_4kv_c»),
  ("tB", "diodevss_4kv_b", «diodevss_4kv_b»), ("tE", "diodevss_4kv_e_1x1", «diodevss_4kv_e_1x1»)]⟩

/-- rule_decks/esd_extraction.lvs 72. -/
def device32 : DeviceRule := ⟨"bjt3", "idiodevdd_2kv", [
  ("C", "idiodevdd_2kv_c.extents", .made "idiodevdd_2kv_c.extents" «idiodevdd_2kv_c»),
  ("B", "idiodevdd_2kv_b.extents", .made "idiodevdd_2kv_b.extents" «idiodevdd_2kv_b»),
  ("E", "idiodevdd_2kv_e_1x1", «idiodevdd_2kv_e_1x1»), ("tC", "idiodevdd_2kv_c", «idiodevdd_2kv_c»),
  ("tB", "idiodevdd_2kv_b", «idiodevdd_2kv_b»), ("tE", "idiodevdd_2kv_e_1x1", «idiodevdd_2kv_e_1x1»)]⟩

/-- rule_decks/esd_extraction.lvs 81. -/
def device33 : DeviceRule := ⟨"bjt3", "idiodevdd_4kv", [
  ("C", "idiodevdd_4kv_c.extents", .made "idiodevdd_4kv_c.extents" «idiodevdd_4kv_c»),
  ("B", "idiodevdd_4kv_b.extents", .made "idiodevdd_4kv_b.extents" «idiodevdd_4kv_b»),
  ("E", "idiodevdd_4kv_e_1x1", «idiodevdd_4kv_e_1x1»), ("tC", "idiodevdd_4kv_c", «idiodevdd_4kv_c»),
  ("tB", "idiodevdd_4kv_b", «idiodevdd_4kv_b»), ("tE", "idiodevdd_4kv_e_1x1", «idiodevdd_4kv_e_1x1»)]⟩

/-- rule_decks/esd_extraction.lvs 90. -/
def device34 : DeviceRule := ⟨"bjt3", "idiodevss_2kv", [
  ("C", "idiodevss_2kv_c.extents", .made "idiodevss_2kv_c.extents" «idiodevss_2kv_c»),
  ("B", "idiodevss_2kv_b.extents", .made "idiodevss_2kv_b.extents" «idiodevss_2kv_b»),
  ("E", "idiodevss_2kv_e_1x1", «idiodevss_2kv_e_1x1»), ("tC", "idiodevss_2kv_c", «idiodevss_2kv_c»),
  ("tB", "idiodevss_2kv_b", «idiodevss_2kv_b»), ("tE", "idiodevss_2kv_e_1x1", «idiodevss_2kv_e_1x1»)]⟩

/-- rule_decks/esd_extraction.lvs 99. -/
def device35 : DeviceRule := ⟨"bjt3", "idiodevss_4kv", [
  ("C", "idiodevss_4kv_c.extents", .made "idiodevss_4kv_c.extents" «idiodevss_4kv_c»),
  ("B", "idiodevss_4kv_b.extents", .made "idiodevss_4kv_b.extents" «idiodevss_4kv_b»),
  ("E", "idiodevss_4kv_e_1x1", «idiodevss_4kv_e_1x1»), ("tC", "idiodevss_4kv_c", «idiodevss_4kv_c»),
  ("tB", "idiodevss_4kv_b", «idiodevss_4kv_b»), ("tE", "idiodevss_4kv_e_1x1", «idiodevss_4kv_e_1x1»)]⟩

/-- rule_decks/esd_extraction.lvs 112. -/
def device36 : DeviceRule := ⟨"diode", "nmoscl_2", [
  ("N", "nmoscl_2_n", «nmoscl_2_n»), ("P", "nmoscl_2_p", «nmoscl_2_p»)]⟩

/-- rule_decks/esd_extraction.lvs 116. -/
def device37 : DeviceRule := ⟨"diode", "nmoscl_4", [
  ("N", "nmoscl_4_n", «nmoscl_4_n»), ("P", "nmoscl_4_p", «nmoscl_4_p»)]⟩

/-- rule_decks/ind_extraction.lvs 28. -/
def device38 : DeviceRule := ⟨"GeneralNTerminalExtractor", "inductor", [
  ("core", "ind2_core", «ind2_core»), ("ports", "ind2_ports", «ind2_ports»),
  ("meas_mk", "topmetal2.and(ind2_core)", .and «topmetal2» «ind2_core»), ("dev_mk", "ind2_mk", «ind2_mk»),
  ("sub_mk", "ind2_sub", «ind2_sub»)]⟩

/-- rule_decks/ind_extraction.lvs 38. -/
def device39 : DeviceRule := ⟨"GeneralNTerminalExtractor", "inductor3", [
  ("core", "ind3_core", «ind3_core»), ("ports", "ind3_ports", «ind3_ports»),
  ("meas_mk", "topmetal2.and(ind3_core)", .and «topmetal2» «ind3_core»), ("dev_mk", "ind3_mk", «ind3_mk»),
  ("sub_mk", "ind3_sub", «ind3_sub»)]⟩

/-- rule_decks/tap_extraction.lvs 28. -/
def device40 : DeviceRule := ⟨"diode", "ntap1", [
  ("N", "ntap1_tie", «ntap1_tie»), ("P", "ntap1_well", «ntap1_well»)]⟩

/-- rule_decks/tap_extraction.lvs 32. -/
def device41 : DeviceRule := ⟨"diode", "ptap1", [
  ("N", "ptap1_tie", «ptap1_tie»), ("P", "ptap1_sub", «ptap1_sub»)]⟩

/-- The devices, in the order of the script. -/
def devices : List DeviceRule := [
  device0, device1, device2, device3, device4, device5, device6, device7, device8, device9, device10, device11,
  device12, device13, device14, device15, device16, device17, device18, device19, device20, device21, device22,
  device23, device24, device25, device26, device27, device28, device29, device30, device31, device32, device33,
  device34, device35, device36, device37, device38, device39, device40, device41]

end Verif.LvsRules.Sg13g2
