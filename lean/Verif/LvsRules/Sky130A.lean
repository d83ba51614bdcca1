import Verif.LvsRules.Model

/-!
# Layers and connections of the LVS script of Sky130A

Translated by `tools/gen_lvs.py` from `pdk/sky130A/libs.tech/kpex/sky130.lvs`
and the files it includes: every assignment that a layer of the technology or of a `connect` statement depends on, in the
order of the script. A second assignment to a variable has the suffix `_2`.
-/

namespace Verif.LvsRules.Sky130A

/-- `diff = input(65 , 20 )`; sky130.lvs 723. -/
def «diff» : Expr := .drawn 65 20

/-- `poly = input(66 , 20 )`; sky130.lvs 724. -/
def «poly» : Expr := .drawn 66 20

/-- `li = input(67 , 20 )`; sky130.lvs 725. -/
def «li» : Expr := .drawn 67 20

/-- `met1 = input(68 , 20 )`; sky130.lvs 726. -/
def «met1» : Expr := .drawn 68 20

/-- `met2 = input(69 , 20 )`; sky130.lvs 727. -/
def «met2» : Expr := .drawn 69 20

/-- `met3 = input(70 , 20 )`; sky130.lvs 728. -/
def «met3» : Expr := .drawn 70 20

/-- `met4 = input(71 , 20 )`; sky130.lvs 729. -/
def «met4» : Expr := .drawn 71 20

/-- `met5 = input(72 , 20 )`; sky130.lvs 730. -/
def «met5» : Expr := .drawn 72 20

/-- `pad = input(76 , 20 )`; sky130.lvs 731. -/
def «pad» : Expr := .drawn 76 20

/-- `dnwell = polygons(64 , 18 )`; sky130.lvs 736. -/
def «dnwell» : Expr := .drawn 64 18

/-- `pwell_res = polygons(64 , 13 )`; sky130.lvs 738. -/
def «pwell_res» : Expr := .drawn 64 13

/-- `pwbm = polygons(19 , 44 )`; sky130.lvs 739. -/
def «pwbm» : Expr := .drawn 19 44

/-- `pwde = polygons(124, 20 )`; sky130.lvs 740. -/
def «pwde» : Expr := .drawn 124 20

/-- `nwell = polygons(64 , 20 )`; sky130.lvs 741. -/
def «nwell» : Expr := .drawn 64 20

/-- `tap = polygons(65 , 44 )`; sky130.lvs 743. -/
def «tap» : Expr := .drawn 65 44

/-- `psdm = polygons(94 , 20 )`; sky130.lvs 744. -/
def «psdm» : Expr := .drawn 94 20

/-- `nsdm = polygons(93 , 44 )`; sky130.lvs 745. -/
def «nsdm» : Expr := .drawn 93 44

/-- `lvtn = polygons(125, 44 )`; sky130.lvs 746. -/
def «lvtn» : Expr := .drawn 125 44

/-- `hvtr = polygons(18 , 20 )`; sky130.lvs 747. -/
def «hvtr» : Expr := .drawn 18 20

/-- `hvtp = polygons(78 , 44 )`; sky130.lvs 748. -/
def «hvtp» : Expr := .drawn 78 44

/-- `npnid = polygons(82 , 20 )`; sky130.lvs 753. -/
def «npnid» : Expr := .drawn 82 20

/-- `pnpid = polygons(82 , 44 )`; sky130.lvs 754. -/
def «pnpid» : Expr := .drawn 82 44

/-- `poly_pin = polygons(66 , 16 )`; sky130.lvs 759. -/
def «poly_pin» : Expr := .drawn 66 16

/-- `poly_res = polygons(66 , 13 )`; sky130.lvs 760. -/
def «poly_res» : Expr := .drawn 66 13

/-- `poly_cut = polygons(66 , 14 )`; sky130.lvs 761. -/
def «poly_cut» : Expr := .drawn 66 14

/-- `hvi = polygons(75 , 20 )`; sky130.lvs 763. -/
def «hvi» : Expr := .drawn 75 20

/-- `licon = polygons(66 , 44 )`; sky130.lvs 764. -/
def «licon» : Expr := .drawn 66 44

/-- `npc = polygons(95 , 20 )`; sky130.lvs 765. -/
def «npc» : Expr := .drawn 95 20

/-- `diff_res = polygons(65 , 13 )`; sky130.lvs 766. -/
def «diff_res» : Expr := .drawn 65 13

/-- `diff_cut = polygons(65 , 14 )`; sky130.lvs 767. -/
def «diff_cut» : Expr := .drawn 65 14

/-- `li_pin = polygons(67 , 16 )`; sky130.lvs 769. -/
def «li_pin» : Expr := .drawn 67 16

/-- `li_res = polygons(67 , 13 )`; sky130.lvs 770. -/
def «li_res» : Expr := .drawn 67 13

/-- `li_cut = polygons(67 , 14 )`; sky130.lvs 771. -/
def «li_cut» : Expr := .drawn 67 14

/-- `mcon = polygons(67 , 44 )`; sky130.lvs 772. -/
def «mcon» : Expr := .drawn 67 44

/-- `met1_pin = polygons(68 , 16 )`; sky130.lvs 773. -/
def «met1_pin» : Expr := .drawn 68 16

/-- `met1_res = polygons(68 , 13 )`; sky130.lvs 774. -/
def «met1_res» : Expr := .drawn 68 13

/-- `via1 = polygons(68 , 44 )`; sky130.lvs 776. -/
def «via1» : Expr := .drawn 68 44

/-- `met2_pin = polygons(69 , 16 )`; sky130.lvs 777. -/
def «met2_pin» : Expr := .drawn 69 16

/-- `met2_res = polygons(69 , 13 )`; sky130.lvs 778. -/
def «met2_res» : Expr := .drawn 69 13

/-- `met2_fuse = polygons(69 , 17 )`; sky130.lvs 780. -/
def «met2_fuse» : Expr := .drawn 69 17

/-- `via2 = polygons(69 , 44 )`; sky130.lvs 781. -/
def «via2» : Expr := .drawn 69 44

/-- `met3_pin = polygons(70 , 16 )`; sky130.lvs 782. -/
def «met3_pin» : Expr := .drawn 70 16

/-- `met3_res = polygons(70 , 13 )`; sky130.lvs 783. -/
def «met3_res» : Expr := .drawn 70 13

/-- `met3_fuse = polygons(70 , 17 )`; sky130.lvs 785. -/
def «met3_fuse» : Expr := .drawn 70 17

/-- `via3 = polygons(70 , 44 )`; sky130.lvs 786. -/
def «via3» : Expr := .drawn 70 44

/-- `met4_pin = polygons(71 , 16 )`; sky130.lvs 787. -/
def «met4_pin» : Expr := .drawn 71 16

/-- `met4_res = polygons(71 , 13 )`; sky130.lvs 788. -/
def «met4_res» : Expr := .drawn 71 13

/-- `met4_fuse = polygons(71 , 17 )`; sky130.lvs 790. -/
def «met4_fuse» : Expr := .drawn 71 17

/-- `via4 = polygons(71 , 44 )`; sky130.lvs 791. -/
def «via4» : Expr := .drawn 71 44

/-- `met5_pin = polygons(72 , 16 )`; sky130.lvs 792. -/
def «met5_pin» : Expr := .drawn 72 16

/-- `met5_res = polygons(72 , 13 )`; sky130.lvs 793. -/
def «met5_res» : Expr := .drawn 72 13

/-- `rdl = polygons(74 , 20 )`; sky130.lvs 795. -/
def «rdl» : Expr := .drawn 74 20

/-- `capm = polygons(89 , 44 )`; sky130.lvs 798. -/
def «capm» : Expr := .drawn 89 44

/-- `capm2 = polygons(97 , 44 )`; sky130.lvs 799. -/
def «capm2» : Expr := .drawn 97 44

/-- `ncm = polygons(92 , 44 )`; sky130.lvs 805. -/
def «ncm» : Expr := .drawn 92 44

/-- `inductor = polygons(82 , 24 )`; sky130.lvs 810. -/
def «inductor» : Expr := .drawn 82 24

/-- `vpp = polygons(82 , 64 )`; sky130.lvs 811. -/
def «vpp» : Expr := .drawn 82 64

/-- `areaid_ed = polygons(81 , 19 )`; sky130.lvs 830. -/
def «areaid_ed» : Expr := .drawn 81 19

/-- `areaid_de = polygons(81 , 23 )`; sky130.lvs 831. -/
def «areaid_de» : Expr := .drawn 81 23

/-- `areaid_po = polygons(81 , 81 )`; sky130.lvs 843. -/
def «areaid_po» : Expr := .drawn 81 81

/-- `uhv_mos_1 = polygons(110, 14 )`; sky130.lvs 850. -/
def «uhv_mos_1» : Expr := .drawn 110 14

/-- `uhv_mos_2 = polygons(173, 0 )`; sky130.lvs 851. -/
def «uhv_mos_2» : Expr := .drawn 173 0

/-- `uhv_mos_3 = polygons(174, 0 )`; sky130.lvs 852. -/
def «uhv_mos_3» : Expr := .drawn 174 0

/-- `sub_label = labels(122, 5)`; sky130.lvs 857. -/
def «sub_label» : Expr := .text 122 5

/-- `nwell_label = labels(64 , 5)`; sky130.lvs 859. -/
def «nwell_label» : Expr := .text 64 5

/-- `pwell_label = labels(64 ,59)`; sky130.lvs 860. -/
def «pwell_label» : Expr := .text 64 59

/-- `tap_label = labels(65 , 5)`; sky130.lvs 861. -/
def «tap_label» : Expr := .text 65 5

/-- `diff_label = labels(65 , 6)`; sky130.lvs 862. -/
def «diff_label» : Expr := .text 65 6

/-- `poly_label = labels(66 , 5)`; sky130.lvs 863. -/
def «poly_label» : Expr := .text 66 5

/-- `li_label = labels(67 , 5)`; sky130.lvs 865. -/
def «li_label» : Expr := .text 67 5

/-- `met1_label = labels(68 , 5)`; sky130.lvs 866. -/
def «met1_label» : Expr := .text 68 5

/-- `met2_label = labels(69 , 5)`; sky130.lvs 867. -/
def «met2_label» : Expr := .text 69 5

/-- `met3_label = labels(70 , 5)`; sky130.lvs 868. -/
def «met3_label» : Expr := .text 70 5

/-- `met4_label = labels(71 , 5)`; sky130.lvs 869. -/
def «met4_label» : Expr := .text 71 5

/-- `met5_label = labels(72 , 5)`; sky130.lvs 870. -/
def «met5_label» : Expr := .text 72 5

/-- `rdl_label = labels(74 , 5)`; sky130.lvs 871. -/
def «rdl_label» : Expr := .text 74 5

/-- `pad_label = labels(76 , 5)`; sky130.lvs 872. -/
def «pad_label» : Expr := .text 76 5

/-- `sub = polygon_layer`; sky130.lvs 876. -/
def «sub» : Expr := .other "polygon_layer"

/-- `ncomp = diff.and(nsdm)`; sky130.lvs 972. -/
def «ncomp» : Expr := .and «diff» «nsdm»

/-- `pcomp = diff.and(psdm)`; sky130.lvs 973. -/
def «pcomp» : Expr := .and «diff» «psdm»

/-- `sd = diff.not(poly).not(diff_res).not(diff_cut).not(tap).not(areaid_po).not(npnid).not(pnpid).not(areaid_de).not(uhv_mos_1).not(uhv_mos_2).not(uhv_mos_3)`; sky130.lvs 975. -/
def «sd» : Expr := .diff (.diff (.diff (.diff (.diff (.diff (.diff (.diff (.diff (.diff (.diff «diff» «poly») «diff_res») «diff_cut») «tap») «areaid_po») «npnid») «pnpid») «areaid_de») «uhv_mos_1») «uhv_mos_2») «uhv_mos_3»

/-- `nsd = nsdm.and(sd).not(nwell).interacting(ngate)`; sky130.lvs 979. -/
def «nsd» : Expr := .some "nsdm.and(sd).not(nwell).interacting(ngate)" (.diff (.and «nsdm» «sd») «nwell»)

/-- `ptap_conn = tap.and(psdm).not(nwell).not(diff_res).not(diff_cut).not(npnid).not(pnpid)`; sky130.lvs 980. -/
def «ptap_conn» : Expr := .diff (.diff (.diff (.diff (.diff (.and «tap» «psdm») «nwell») «diff_res») «diff_cut») «npnid») «pnpid»

/-- `ptap_bjt = tap.and(psdm).not(diff_res).not(diff_cut)`; sky130.lvs 981. -/
def «ptap_bjt» : Expr := .diff (.diff (.and «tap» «psdm») «diff_res») «diff_cut»

/-- `psd = psdm.and(sd).and(nwell).interacting(pgate)`; sky130.lvs 984. -/
def «psd» : Expr := .some "psdm.and(sd).and(nwell).interacting(pgate)" (.and (.and «psdm» «sd») «nwell»)

/-- `ntap_conn = tap.and(nsdm).and(nwell).not(diff_res).not(diff_cut).not(npnid).not(pnpid)`; sky130.lvs 985. -/
def «ntap_conn» : Expr := .diff (.diff (.diff (.diff (.and (.and «tap» «nsdm») «nwell») «diff_res») «diff_cut») «npnid») «pnpid»

/-- `ntap_bjt = tap.and(nsdm).not(diff_res).not(diff_cut)`; sky130.lvs 986. -/
def «ntap_bjt» : Expr := .diff (.diff (.and «tap» «nsdm») «diff_res») «diff_cut»

/-- `poly_con = poly.not(poly_res).not(vpp).not(npnid)`; sky130.lvs 988. -/
def «poly_con» : Expr := .diff (.diff (.diff «poly» «poly_res») «vpp») «npnid»

/-- `li_con = li.not( li_res ).not(vpp)`; sky130.lvs 989. -/
def «li_con» : Expr := .diff (.diff «li» «li_res») «vpp»

/-- `licon_poly_con = licon.and(poly)`; sky130.lvs 994. -/
def «licon_poly_con» : Expr := .and «licon» «poly»

/-- `licon_nsd_con = licon.and(nsd)`; sky130.lvs 995. -/
def «licon_nsd_con» : Expr := .and «licon» «nsd»

/-- `licon_psd_con = licon.and(psd)`; sky130.lvs 996. -/
def «licon_psd_con» : Expr := .and «licon» «psd»

/-- `mcon_con = mcon.not(vpp)`; sky130.lvs 998. -/
def «mcon_con» : Expr := .diff «mcon» «vpp»

/-- `via1_con = via1.not(vpp)`; sky130.lvs 999. -/
def «via1_con» : Expr := .diff «via1» «vpp»

/-- `via2_con = via2.not(vpp)`; sky130.lvs 1000. -/
def «via2_con» : Expr := .diff «via2» «vpp»

/-- `via3_con = via3.not(vpp)`; sky130.lvs 1001. -/
def «via3_con» : Expr := .diff «via3» «vpp»

/-- `via4_con = via4.not(vpp)`; sky130.lvs 1002. -/
def «via4_con» : Expr := .diff «via4» «vpp»

/-- `met1_con = met1.not(met1_res).not(vpp)`; sky130.lvs 1004. -/
def «met1_con» : Expr := .diff (.diff «met1» «met1_res») «vpp»

/-- `met2_con = met2.not(met2_res).not(inductor).not(met2_fuse).not(vpp)`; sky130.lvs 1005. -/
def «met2_con» : Expr := .diff (.diff (.diff (.diff «met2» «met2_res») «inductor») «met2_fuse») «vpp»

/-- `met3_con = met3.not(met3_res).not(inductor).not(met3_fuse).not(vpp)`; sky130.lvs 1006. -/
def «met3_con» : Expr := .diff (.diff (.diff (.diff «met3» «met3_res») «inductor») «met3_fuse») «vpp»

/-- `met4_con = met4.not(met4_res).not(met4_fuse).not(vpp)`; sky130.lvs 1007. -/
def «met4_con» : Expr := .diff (.diff (.diff «met4» «met4_res») «met4_fuse») «vpp»

/-- `met5_con = met5.not(met5_res).not(vpp)`; sky130.lvs 1008. -/
def «met5_con» : Expr := .diff (.diff «met5» «met5_res») «vpp»

/-- `poly_pin_con = poly_pin & poly_con`; sky130.lvs 1011. -/
def «poly_pin_con» : Expr := .and «poly_pin» «poly_con»

/-- `li_pin_con = li_pin & li_con`; sky130.lvs 1012. -/
def «li_pin_con» : Expr := .and «li_pin» «li_con»

/-- `met1_pin_con = met1_pin & met1_con`; sky130.lvs 1013. -/
def «met1_pin_con» : Expr := .and «met1_pin» «met1_con»

/-- `met2_pin_con = met2_pin & met2_con`; sky130.lvs 1014. -/
def «met2_pin_con» : Expr := .and «met2_pin» «met2_con»

/-- `met3_pin_con = met3_pin & met3_con`; sky130.lvs 1015. -/
def «met3_pin_con» : Expr := .and «met3_pin» «met3_con»

/-- `met4_pin_con = met4_pin & met4_con`; sky130.lvs 1016. -/
def «met4_pin_con» : Expr := .and «met4_pin» «met4_con»

/-- `met5_pin_con = met5_pin & met5_con`; sky130.lvs 1017. -/
def «met5_pin_con» : Expr := .and «met5_pin» «met5_con»

/-- `bjt_exclude = diff_res.or(diff_cut).or(pwbm).or(pwde).or(hvtr).or(lvtn).or(ncm).or(poly_res).or(poly_cut).or(li_res).or(li_cut)`; sky130.lvs 1083. -/
def «bjt_exclude» : Expr := .or (.or (.or (.or (.or (.or (.or (.or (.or (.or «diff_res» «diff_cut») «pwbm») «pwde») «hvtr») «lvtn») «ncm») «poly_res») «poly_cut») «li_res») «li_cut»

/-- `npn_exclude = bjt_exclude.or(pwell_res)`; sky130.lvs 1084. -/
def «npn_exclude» : Expr := .or «bjt_exclude» «pwell_res»

/-- `pnp_exclude = bjt_exclude.or(dnwell)`; sky130.lvs 1085. -/
def «pnp_exclude» : Expr := .or «bjt_exclude» «dnwell»

/-- `npn_e = ncomp.inside(dnwell).inside(npnid).not(npn_exclude)`; sky130.lvs 1094. -/
def «npn_e» : Expr := .diff (.some "ncomp.inside(dnwell).inside(npnid)" (.some "ncomp.inside(dnwell)" «ncomp»)) «npn_exclude»

/-- `npn_b = ptap_bjt.inside(dnwell).inside(npnid).not(npn_exclude)`; sky130.lvs 1095. -/
def «npn_b» : Expr := .diff (.some "ptap_bjt.inside(dnwell).inside(npnid)" (.some "ptap_bjt.inside(dnwell)" «ptap_bjt»)) «npn_exclude»

/-- `npn_c = ntap_bjt.inside(nwell).inside(dnwell).interacting(npnid).not(npn_exclude)`; sky130.lvs 1096. -/
def «npn_c» : Expr := .diff (.some "ntap_bjt.inside(nwell).inside(dnwell).interacting(npnid)" (.some "ntap_bjt.inside(nwell).inside(dnwell)" (.some "ntap_bjt.inside(nwell)" «ntap_bjt»))) «npn_exclude»

/-- `npn_5v0_1x1_e = npn_e.with_area(0.81.um, 1.21.um).interacting(npn_e.edges.with_length(0.9.um, 1.1.um)).not_interacting(poly)`; sky130.lvs 1099. -/
def «npn_5v0_1x1_e» : Expr := .some "npn_e.with_area(0.81.um,1.21.um).interacting(npn_e.edges.with_length(0.9.um,1.1.um)).not_interacting(poly)" (.some "npn_e.with_area(0.81.um,1.21.um).interacting(npn_e.edges.with_length(0.9.um,1.1.um))" (.some "npn_e.with_area(0.81.um,1.21.um)" «npn_e»))

/-- `npn_5v0_1x1_b = npn_b.interacting(npn_b.extents.interacting(npn_5v0_1x1_e))`; sky130.lvs 1100. -/
def «npn_5v0_1x1_b» : Expr := .some "npn_b.interacting(npn_b.extents.interacting(npn_5v0_1x1_e))" «npn_b»

/-- `npn_5v0_1x1_c = npn_c.interacting(npn_c.extents.interacting(npn_5v0_1x1_e))`; sky130.lvs 1101. -/
def «npn_5v0_1x1_c» : Expr := .some "npn_c.interacting(npn_c.extents.interacting(npn_5v0_1x1_e))" «npn_c»

/-- `npn_5v0_1x2_e = npn_e.with_area(1.71.um, 2.31.um).interacting(npn_e.edges.with_length(1.9.um, 2.1.um)).not_interacting(poly)`; sky130.lvs 1104. -/
def «npn_5v0_1x2_e» : Expr := .some "npn_e.with_area(1.71.um,2.31.um).interacting(npn_e.edges.with_length(1.9.um,2.1.um)).not_interacting(poly)" (.some "npn_e.with_area(1.71.um,2.31.um).interacting(npn_e.edges.with_length(1.9.um,2.1.um))" (.some "npn_e.with_area(1.71.um,2.31.um)" «npn_e»))

/-- `npn_5v0_1x2_b = npn_b.interacting(npn_b.extents.interacting(npn_5v0_1x2_e))`; sky130.lvs 1105. -/
def «npn_5v0_1x2_b» : Expr := .some "npn_b.interacting(npn_b.extents.interacting(npn_5v0_1x2_e))" «npn_b»

/-- `npn_5v0_1x2_c = npn_c.interacting(npn_c.extents.interacting(npn_5v0_1x2_e))`; sky130.lvs 1106. -/
def «npn_5v0_1x2_c» : Expr := .some "npn_c.interacting(npn_c.extents.interacting(npn_5v0_1x2_e))" «npn_c»

/-- `npn_11v0_1x1_e = npn_e.interacting(poly)`; sky130.lvs 1109. -/
def «npn_11v0_1x1_e» : Expr := .some "npn_e.interacting(poly)" «npn_e»

/-- `npn_11v0_1x1_b = npn_b.interacting(npn_b.extents.interacting(npn_11v0_1x1_e))`; sky130.lvs 1110. -/
def «npn_11v0_1x1_b» : Expr := .some "npn_b.interacting(npn_b.extents.interacting(npn_11v0_1x1_e))" «npn_b»

/-- `npn_11v0_1x1_c = npn_c.interacting(npn_c.extents.interacting(npn_11v0_1x1_e))`; sky130.lvs 1111. -/
def «npn_11v0_1x1_c» : Expr := .some "npn_c.interacting(npn_c.extents.interacting(npn_11v0_1x1_e))" «npn_c»

/-- `pnp_e = pcomp.inside(nwell).inside(pnpid).not(pnp_exclude).not_interacting(poly)`; sky130.lvs 1120. -/
def «pnp_e» : Expr := .some "pcomp.inside(nwell).inside(pnpid).not(pnp_exclude).not_interacting(poly)" (.diff (.some "pcomp.inside(nwell).inside(pnpid)" (.some "pcomp.inside(nwell)" «pcomp»)) «pnp_exclude»)

/-- `pnp_b = ntap_bjt.inside(pnpid).not(pnp_exclude).not_interacting(poly)`; sky130.lvs 1121. -/
def «pnp_b» : Expr := .some "ntap_bjt.inside(pnpid).not(pnp_exclude).not_interacting(poly)" (.diff (.some "ntap_bjt.inside(pnpid)" «ntap_bjt») «pnp_exclude»)

/-- `pnp_c = ptap_bjt.interacting(pnpid).not(pnp_exclude).not_interacting(poly)`; sky130.lvs 1122. -/
def «pnp_c» : Expr := .some "ptap_bjt.interacting(pnpid).not(pnp_exclude).not_interacting(poly)" (.diff (.some "ptap_bjt.interacting(pnpid)" «ptap_bjt») «pnp_exclude»)

/-- `pnp_5v0_0p68x0p68_e = pnp_e.with_area(0.3364.um, 0.6084.um).interacting(pnp_e.edges.with_length(0.58.um, 0.78.um))`; sky130.lvs 1125. -/
def «pnp_5v0_0p68x0p68_e» : Expr := .some "pnp_e.with_area(0.3364.um,0.6084.um).interacting(pnp_e.edges.with_length(0.58.um,0.78.um))" (.some "pnp_e.with_area(0.3364.um,0.6084.um)" «pnp_e»)

/-- `pnp_5v0_0p68x0p68_b = pnp_b.interacting(pnp_b.extents.interacting(pnp_5v0_0p68x0p68_e))`; sky130.lvs 1126. -/
def «pnp_5v0_0p68x0p68_b» : Expr := .some "pnp_b.interacting(pnp_b.extents.interacting(pnp_5v0_0p68x0p68_e))" «pnp_b»

/-- `pnp_5v0_0p68x0p68_c = pnp_c.interacting(pnp_c.extents.interacting(pnp_5v0_0p68x0p68_e))`; sky130.lvs 1127. -/
def «pnp_5v0_0p68x0p68_c» : Expr := .some "pnp_c.interacting(pnp_c.extents.interacting(pnp_5v0_0p68x0p68_e))" «pnp_c»

/-- `pnp_5v0_3p4x3p4_e = pnp_e.with_area(10.24.um, 12.96.um).interacting(pnp_e.edges.with_length(3.2.um, 3.6.um))`; sky130.lvs 1130. -/
def «pnp_5v0_3p4x3p4_e» : Expr := .some "pnp_e.with_area(10.24.um,12.96.um).interacting(pnp_e.edges.with_length(3.2.um,3.6.um))" (.some "pnp_e.with_area(10.24.um,12.96.um)" «pnp_e»)

/-- `pnp_5v0_3p4x3p4_b = pnp_b.interacting(pnp_b.extents.interacting(pnp_5v0_3p4x3p4_e))`; sky130.lvs 1131. -/
def «pnp_5v0_3p4x3p4_b» : Expr := .some "pnp_b.interacting(pnp_b.extents.interacting(pnp_5v0_3p4x3p4_e))" «pnp_b»

/-- `pnp_5v0_3p4x3p4_c = pnp_c.interacting(pnp_c.extents.interacting(pnp_5v0_3p4x3p4_e))`; sky130.lvs 1132. -/
def «pnp_5v0_3p4x3p4_c» : Expr := .some "pnp_c.interacting(pnp_c.extents.interacting(pnp_5v0_3p4x3p4_e))" «pnp_c»

/-- `ndiode_terminal_n = ncomp.outside(dnwell).not(hvtp).interacting(areaid_de).not_interacting(areaid_ed)`; sky130.lvs 1142. -/
def «ndiode_terminal_n» : Expr := .some "ncomp.outside(dnwell).not(hvtp).interacting(areaid_de).not_interacting(areaid_ed)" (.some "ncomp.outside(dnwell).not(hvtp).interacting(areaid_de)" (.diff (.some "ncomp.outside(dnwell)" «ncomp») «hvtp»))

/-- `ndiode_terminal_p = ptap_conn.holes.interacting(ndiode_terminal_n).not_interacting(areaid_ed)`; sky130.lvs 1143. -/
def «ndiode_terminal_p» : Expr := .some "ptap_conn.holes.interacting(ndiode_terminal_n).not_interacting(areaid_ed)" (.some "ptap_conn.holes.interacting(ndiode_terminal_n)" (.made "ptap_conn.holes" «ptap_conn»))

/-- `pdiode_terminal_n = pcomp.outside(dnwell).interacting(areaid_de).not_interacting(areaid_ed)`; sky130.lvs 1146. -/
def «pdiode_terminal_n» : Expr := .some "pcomp.outside(dnwell).interacting(areaid_de).not_interacting(areaid_ed)" (.some "pcomp.outside(dnwell).interacting(areaid_de)" (.some "pcomp.outside(dnwell)" «pcomp»))

/-- `pdiode_terminal_p = nwell.interacting(areaid_de).not_interacting(areaid_ed)`; sky130.lvs 1147. -/
def «pdiode_terminal_p» : Expr := .some "nwell.interacting(areaid_de).not_interacting(areaid_ed)" (.some "nwell.interacting(areaid_de)" «nwell»)

/-- `photodiode_exclude = diff.or(pwbm).or(pwde).or(hvtr).or(hvtp).or(areaid_de).or(areaid_ed)`; sky130.lvs 1189. -/
def «photodiode_exclude» : Expr := .or (.or (.or (.or (.or (.or «diff» «pwbm») «pwde») «hvtr») «hvtp») «areaid_de») «areaid_ed»

/-- `photodiode_n_init = ntap_conn.and(nwell).and(dnwell).interacting(areaid_po).not(photodiode_exclude)`; sky130.lvs 1190. -/
def «photodiode_n_init» : Expr := .diff (.some "ntap_conn.and(nwell).and(dnwell).interacting(areaid_po)" (.and (.and «ntap_conn» «nwell») «dnwell»)) «photodiode_exclude»

/-- `photodiode_n = photodiode_n_init.with_area(0.16.um, 0.1764.um).interacting(photodiode_n_init.edges.with_length(0.4.um, 0.42.um))`; sky130.lvs 1191. -/
def «photodiode_n» : Expr := .some "photodiode_n_init.with_area(0.16.um,0.1764.um).interacting(photodiode_n_init.edges.with_length(0.4.um,0.42.um))" (.some "photodiode_n_init.with_area(0.16.um,0.1764.um)" «photodiode_n_init»)

/-- `photodiode_p = ptap_conn.holes.interacting(photodiode_n)`; sky130.lvs 1192. -/
def «photodiode_p» : Expr := .some "ptap_conn.holes.interacting(photodiode_n)" (.made "ptap_conn.holes" «ptap_conn»)

/-- `nplus_cont_init = ncomp.not_interacting(ngate).interacting(diff_res).not(diff_res)`; sky130.lvs 1209. -/
def «nplus_cont_init» : Expr := .diff (.some "ncomp.not_interacting(ngate).interacting(diff_res)" (.some "ncomp.not_interacting(ngate)" «ncomp»)) «diff_res»

/-- `pplus_cont_init = pcomp.and(nwell).not_interacting(pgate).interacting(diff_res).not(diff_res)`; sky130.lvs 1210. -/
def «pplus_cont_init» : Expr := .diff (.some "pcomp.and(nwell).not_interacting(pgate).interacting(diff_res)" (.some "pcomp.and(nwell).not_interacting(pgate)" (.and «pcomp» «nwell»))) «diff_res»

/-- `nplus_cont = nplus_cont_init.not(hvi)`; sky130.lvs 1214. -/
def «nplus_cont» : Expr := .diff «nplus_cont_init» «hvi»

/-- `nplus_hv_cont = nplus_cont_init.and(hvi)`; sky130.lvs 1218. -/
def «nplus_hv_cont» : Expr := .and «nplus_cont_init» «hvi»

/-- `pplus_cont = pplus_cont_init.not(hvi)`; sky130.lvs 1222. -/
def «pplus_cont» : Expr := .diff «pplus_cont_init» «hvi»

/-- `pplus_hv_cont = pplus_cont_init.and(hvi)`; sky130.lvs 1226. -/
def «pplus_hv_cont» : Expr := .and «pplus_cont_init» «hvi»

/-- `pwell_term = ptap_conn.and(dnwell).interacting(pwell_res).not(pwell_res)`; sky130.lvs 1230. -/
def «pwell_term» : Expr := .diff (.some "ptap_conn.and(dnwell).interacting(pwell_res)" (.and «ptap_conn» «dnwell»)) «pwell_res»

/-- `licon_npc = licon.and(npc)`; sky130.lvs 1266. -/
def «licon_npc» : Expr := .and «licon» «npc»

/-- `met3_ncap = met3_con.not(capm)`; sky130.lvs 1318. -/
def «met3_ncap» : Expr := .diff «met3_con» «capm»

/-- `met3_cap = met3_con.and(capm)`; sky130.lvs 1319. -/
def «met3_cap» : Expr := .and «met3_con» «capm»

/-- `via3_ncap = via3_con.not(capm)`; sky130.lvs 1320. -/
def «via3_ncap» : Expr := .diff «via3_con» «capm»

/-- `via3_cap = via3_con.and(capm)`; sky130.lvs 1321. -/
def «via3_cap» : Expr := .and «via3_con» «capm»

/-- `met4_ncap = met4_con.not(capm2)`; sky130.lvs 1324. -/
def «met4_ncap» : Expr := .diff «met4_con» «capm2»

/-- `met4_cap = met4_con.and(capm2)`; sky130.lvs 1325. -/
def «met4_cap» : Expr := .and «met4_con» «capm2»

/-- `via4_ncap = via4_con.not(capm2)`; sky130.lvs 1326. -/
def «via4_ncap» : Expr := .diff «via4_con» «capm2»

/-- `via4_cap = via4_con.and(capm2)`; sky130.lvs 1327. -/
def «via4_cap» : Expr := .and «via4_con» «capm2»

/-- `varactor_bulk_lvt = ptap_conn.holes.interacting(varactor_gate_lvt)`; sky130.lvs 1343. -/
def «varactor_bulk_lvt» : Expr := .some "ptap_conn.holes.interacting(varactor_gate_lvt)" (.made "ptap_conn.holes" «ptap_conn»)

/-- `varactor_bulk_hvt = ptap_conn.holes.interacting(varactor_gate_hvt)`; sky130.lvs 1348. -/
def «varactor_bulk_hvt» : Expr := .some "ptap_conn.holes.interacting(varactor_gate_hvt)" (.made "ptap_conn.holes" «ptap_conn»)

/-- `inductor_sub = inductor.and(extent)`; sky130.lvs 1358. -/
def «inductor_sub» : Expr := .and «inductor» (.other "extent")

/-- `vpp_sub = vpp.and(extent)`; sky130.lvs 1377. -/
def «vpp_sub» : Expr := .and «vpp» (.other "extent")

/-- `poly_vpp = poly.and(vpp)`; sky130.lvs 1421. -/
def «poly_vpp» : Expr := .and «poly» «vpp»

/-- `li_vpp = li.and(vpp)`; sky130.lvs 1422. -/
def «li_vpp» : Expr := .and «li» «vpp»

/-- `met1_vpp = met1.and(vpp)`; sky130.lvs 1423. -/
def «met1_vpp» : Expr := .and «met1» «vpp»

/-- `met2_vpp = met2.and(vpp)`; sky130.lvs 1424. -/
def «met2_vpp» : Expr := .and «met2» «vpp»

/-- `met3_vpp = met3.and(vpp)`; sky130.lvs 1425. -/
def «met3_vpp» : Expr := .and «met3» «vpp»

/-- `met4_vpp = met4.and(vpp)`; sky130.lvs 1426. -/
def «met4_vpp» : Expr := .and «met4» «vpp»

/-- `met5_vpp = met5.and(vpp)`; sky130.lvs 1427. -/
def «met5_vpp» : Expr := .and «met5» «vpp»

/-- `licon_vpp = licon.and(vpp)`; sky130.lvs 1429. -/
def «licon_vpp» : Expr := .and «licon» «vpp»

/-- `mcon_vpp = mcon.and(vpp)`; sky130.lvs 1430. -/
def «mcon_vpp» : Expr := .and «mcon» «vpp»

/-- `via1_vpp = via1.and(vpp)`; sky130.lvs 1431. -/
def «via1_vpp» : Expr := .and «via1» «vpp»

/-- `via2_vpp = via2.and(vpp)`; sky130.lvs 1432. -/
def «via2_vpp» : Expr := .and «via2» «vpp»

/-- `via3_vpp = via3.and(vpp)`; sky130.lvs 1433. -/
def «via3_vpp» : Expr := .and «via3» «vpp»

/-- `via4_vpp = via4.and(vpp)`; sky130.lvs 1434. -/
def «via4_vpp» : Expr := .and «via4» «vpp»

/-- `sonos_nsd = nsdm.and(sd).not(nwell).interacting(sonos_gate)`; sky130.lvs 1653. -/
def «sonos_nsd» : Expr := .some "nsdm.and(sd).not(nwell).interacting(sonos_gate)" (.diff (.and «nsdm» «sd») «nwell»)

/-- The layers of the technology and of the `connect` statements, by name. -/
def layers : List (String × Expr) := [
  ("dnwell", «dnwell»), ("nwell", «nwell»), ("nsd", «nsd»), ("psd", «psd»), ("ntap_conn", «ntap_conn»),
  ("ptap_conn", «ptap_conn»), ("poly_con", «poly_con»), ("li_con", «li_con»), ("met1_con", «met1_con»),
  ("met2_con", «met2_con»), ("met3_ncap", «met3_ncap»), ("met4_ncap", «met4_ncap»), ("met5_con", «met5_con»),
  ("licon_nsd_con", «licon_nsd_con»), ("licon_psd_con", «licon_psd_con»), ("licon_poly_con", «licon_poly_con»),
  ("mcon_con", «mcon_con»), ("via1_con", «via1_con»), ("via2_con", «via2_con»), ("via3_ncap", «via3_ncap»),
  ("via4_ncap", «via4_ncap»), ("via3_cap", «via3_cap»), ("via4_cap", «via4_cap»), ("met3_cap", «met3_cap»),
  ("met4_cap", «met4_cap»), ("capm", «capm»), ("capm2", «capm2»), ("poly_vpp", «poly_vpp»), ("li_vpp", «li_vpp»),
  ("met1_vpp", «met1_vpp»), ("met2_vpp", «met2_vpp»), ("met3_vpp", «met3_vpp»), ("met4_vpp", «met4_vpp»),
  ("met5_vpp", «met5_vpp»), ("licon_vpp", «licon_vpp»), ("mcon_vpp", «mcon_vpp»), ("via1_vpp", «via1_vpp»),
  ("via2_vpp", «via2_vpp»), ("via3_vpp", «via3_vpp»), ("via4_vpp", «via4_vpp»), ("poly_pin_con", «poly_pin_con»),
  ("li_pin_con", «li_pin_con»), ("met1_pin_con", «met1_pin_con»), ("met2_pin_con", «met2_pin_con»),
  ("met3_pin_con", «met3_pin_con»), ("met4_pin_con", «met4_pin_con»), ("met5_pin_con", «met5_pin_con»),
  ("poly_label", «poly_label»), ("li_label", «li_label»), ("sub", «sub»), ("licon", «licon»),
  ("licon_npc", «licon_npc»), ("sub_label", «sub_label»), ("nwell_label", «nwell_label»), ("tap", «tap»),
  ("tap_label", «tap_label»), ("diff_label", «diff_label»), ("met1_label", «met1_label»),
  ("met2_label", «met2_label»), ("met3_label", «met3_label»), ("met4_label", «met4_label»),
  ("met5_label", «met5_label»), ("rdl", «rdl»), ("rdl_label", «rdl_label»), ("pad", «pad»),
  ("pad_label", «pad_label»), ("npn_5v0_1x1_e", «npn_5v0_1x1_e»), ("npn_5v0_1x1_b", «npn_5v0_1x1_b»),
  ("npn_5v0_1x1_c", «npn_5v0_1x1_c»), ("npn_5v0_1x2_e", «npn_5v0_1x2_e»), ("npn_5v0_1x2_b", «npn_5v0_1x2_b»),
  ("npn_5v0_1x2_c", «npn_5v0_1x2_c»), ("npn_11v0_1x1_e", «npn_11v0_1x1_e»), ("npn_11v0_1x1_b", «npn_11v0_1x1_b»),
  ("npn_11v0_1x1_c", «npn_11v0_1x1_c»), ("pnp_5v0_0p68x0p68_e", «pnp_5v0_0p68x0p68_e»),
  ("pnp_5v0_0p68x0p68_b", «pnp_5v0_0p68x0p68_b»), ("pnp_5v0_0p68x0p68_c", «pnp_5v0_0p68x0p68_c»),
  ("pnp_5v0_3p4x3p4_e", «pnp_5v0_3p4x3p4_e»), ("pnp_5v0_3p4x3p4_b", «pnp_5v0_3p4x3p4_b»),
  ("pnp_5v0_3p4x3p4_c", «pnp_5v0_3p4x3p4_c»), ("ndiode_terminal_n", «ndiode_terminal_n»),
  ("ndiode_terminal_p", «ndiode_terminal_p»), ("pdiode_terminal_n", «pdiode_terminal_n»),
  ("pdiode_terminal_p", «pdiode_terminal_p»), ("photodiode_n", «photodiode_n»), ("photodiode_p", «photodiode_p»),
  ("via2", «via2»), ("met3_con", «met3_con»), ("met4_con", «met4_con»), ("varactor_bulk_lvt", «varactor_bulk_lvt»),
  ("varactor_bulk_hvt", «varactor_bulk_hvt»), ("nplus_cont", «nplus_cont»), ("nplus_hv_cont", «nplus_hv_cont»),
  ("pplus_cont", «pplus_cont»), ("pplus_hv_cont", «pplus_hv_cont»), ("pwell_term", «pwell_term»),
  ("inductor_sub", «inductor_sub»), ("pwell_label", «pwell_label»), ("vpp_sub", «vpp_sub»),
  ("sonos_nsd", «sonos_nsd»)]

/-- The `connect` statements, in the order of the script. -/
def connects : List (String × String) := [
  ("sub", "ptap_conn"), ("dnwell", "ntap_conn"), ("nwell", "ntap_conn"), ("ptap_conn", "licon"),
  ("ntap_conn", "licon"), ("psd", "licon"), ("nsd", "licon"), ("poly_con", "licon_npc"), ("licon_npc", "licon"),
  ("licon", "li_con"), ("li_con", "mcon_con"), ("mcon_con", "met1_con"), ("met1_con", "via1_con"),
  ("via1_con", "met2_con"), ("met2_con", "via2_con"), ("via2_con", "met3_ncap"), ("met3_ncap", "via3_ncap"),
  ("via3_ncap", "met4_ncap"), ("met4_ncap", "via4_ncap"), ("via4_ncap", "met5_con"), ("sub", "sub_label"),
  ("nwell", "nwell_label"), ("tap", "tap_label"), ("nsd", "diff_label"), ("psd", "diff_label"),
  ("poly_con", "poly_label"), ("li_con", "li_label"), ("met1_con", "met1_label"), ("met2_con", "met2_label"),
  ("met3_ncap", "met3_label"), ("met4_ncap", "met4_label"), ("met5_con", "met5_label"), ("rdl", "rdl_label"),
  ("pad", "pad_label"), ("licon_poly_con", "licon"), ("licon_nsd_con", "licon"), ("licon_psd_con", "licon"),
  ("poly_con", "poly_pin_con"), ("li_con", "li_pin_con"), ("met1_con", "met1_pin_con"), ("met2_con", "met2_pin_con"),
  ("met3_ncap", "met3_pin_con"), ("met4_ncap", "met4_pin_con"), ("met5_con", "met5_pin_con"),
  ("npn_5v0_1x1_e", "licon"), ("npn_5v0_1x1_b", "licon"), ("npn_5v0_1x1_c", "licon"), ("npn_5v0_1x2_e", "licon"),
  ("npn_5v0_1x2_b", "licon"), ("npn_5v0_1x2_c", "licon"), ("npn_11v0_1x1_e", "licon"), ("npn_11v0_1x1_b", "licon"),
  ("npn_11v0_1x1_c", "licon"), ("pnp_5v0_0p68x0p68_e", "licon"), ("pnp_5v0_0p68x0p68_b", "licon"),
  ("pnp_5v0_0p68x0p68_c", "licon"), ("pnp_5v0_3p4x3p4_e", "licon"), ("pnp_5v0_3p4x3p4_b", "licon"),
  ("pnp_5v0_3p4x3p4_c", "licon"), ("ndiode_terminal_n", "licon"), ("ndiode_terminal_p", "ptap_conn"),
  ("pdiode_terminal_n", "licon"), ("pdiode_terminal_p", "nwell"), ("photodiode_n", "licon"),
  ("photodiode_p", "ptap_conn"), ("via2", "met3_cap"), ("met3_cap", "met3_con"), ("met3_cap", "met3_ncap"),
  ("met3_cap", "met3_label"), ("capm", "via3_cap"), ("via3_cap", "met4_con"), ("via3_cap", "met4_cap"),
  ("via3_cap", "met4_ncap"), ("via3_cap", "via3_ncap"), ("via3_cap", "met4_cap"), ("via3_ncap", "met4_cap"),
  ("met4_cap", "met4_con"), ("met4_cap", "met4_ncap"), ("met4_cap", "met4_label"), ("capm2", "via4_cap"),
  ("via4_cap", "met5_con"), ("via4_cap", "via4_ncap"), ("varactor_bulk_lvt", "ptap_conn"),
  ("varactor_bulk_hvt", "ptap_conn"), ("nplus_cont", "licon"), ("nplus_hv_cont", "licon"), ("pplus_cont", "licon"),
  ("pplus_hv_cont", "licon"), ("pwell_term", "licon"), ("inductor_sub", "pwell_label"), ("vpp_sub", "pwell_label"),
  ("met1_vpp", "met1_con"), ("met1_vpp", "met1_label"), ("met2_vpp", "met2_con"), ("met2_vpp", "met2_label"),
  ("met3_vpp", "met3_ncap"), ("met3_vpp", "met3_label"), ("met4_vpp", "met4_ncap"), ("met4_vpp", "met4_label"),
  ("met5_vpp", "met5_con"), ("met5_vpp", "met5_label"), ("poly_vpp", "licon_vpp"), ("licon_vpp", "li_vpp"),
  ("li_vpp", "mcon_vpp"), ("mcon_vpp", "met1_vpp"), ("met1_vpp", "via1_vpp"), ("via1_vpp", "met2_vpp"),
  ("met2_vpp", "via2_vpp"), ("via2_vpp", "met3_vpp"), ("met3_vpp", "via3_vpp"), ("via3_vpp", "met4_vpp"),
  ("met4_vpp", "via4_vpp"), ("via4_vpp", "met5_vpp"), ("sonos_nsd", "licon")]

/-- The names given to layers with `name(eval(l), l)`, in the order of the script. -/
def names : List String := [
  "sub_label", "pwelliso_label", "nwell_label", "pwell_label", "tap_label", "diff_label", "poly_label", "poly_model",
  "li_label", "met1_label", "met2_label", "met3_label", "met4_label", "met5_label", "rdl_label", "pad_label",
  "txt_label", "ptap_conn", "ntap_conn", "tap", "licon_poly_con", "licon_nsd_con", "licon_psd_con", "poly_pin_con",
  "li_pin_con", "met1_pin_con", "met2_pin_con", "met3_pin_con", "met4_pin_con", "met5_pin_con", "dnwell", "li_con",
  "licon", "mcon_con", "met1_con", "met2_con", "met3_ncap", "met4_ncap", "met5_con", "nsd", "ntap_conn", "nwell",
  "poly_con", "psd", "ptap_conn", "via1_con", "via2_con", "via3_ncap", "via4_ncap", "poly_vpp", "li_vpp", "met1_vpp",
  "met2_vpp", "met3_vpp", "met4_vpp", "met5_vpp", "licon_vpp", "mcon_vpp", "via1_vpp", "via2_vpp", "via3_vpp",
  "via4_vpp", "capm", "capm2", "met3_cap", "via3_cap", "met4_cap", "via4_cap", "tgate", "pgate", "ngate",
  "pgate_1p8v", "pgate_1p8v_lvt", "pgate_1p8v_hvt", "pgate_5p0v_hv", "ngate_1p8v", "ngate_1p8v_lvt",
  "ngate_3p0v_nvt", "ngate_5p0v_nvt", "ngate_5p0v_hv", "licon_npc"]

/-- The script. -/
def script : Script := ⟨layers, connects, names⟩

end Verif.LvsRules.Sky130A
