import Verif.LvsRules.Model

/-!
# Layers and connections of the LVS script of Sg13g2

Translated by `tools/gen_lvs.py` from `pdk/ihp_sg13g2/libs.tech/kpex/sg13g2.lvs`
and the files it includes: every assignment that a layer of the technology or of a `connect` statement depends on, in the
order of the script. A second assignment to a variable has the suffix `_2`.
-/

namespace Verif.LvsRules.Sg13g2

/-- `nodrc_drw = get_polygons(62, 0)`; rule_decks/layers_definitions.lvs 35. -/
def «nodrc_drw» : Expr := .drawn 62 0

/-- `activ_drw = get_polygons(1, 0)`; rule_decks/layers_definitions.lvs 40. -/
def «activ_drw» : Expr := .drawn 1 0

/-- `activ_drw = activ_drw.not(nodrc_drw)`; rule_decks/layers_definitions.lvs 41. -/
def «activ_drw_2» : Expr := .diff «activ_drw» «nodrc_drw»

/-- `activ_filler = get_polygons(1, 22)`; rule_decks/layers_definitions.lvs 46. -/
def «activ_filler» : Expr := .drawn 1 22

/-- `activ_filler = activ_filler.not(nodrc_drw)`; rule_decks/layers_definitions.lvs 47. -/
def «activ_filler_2» : Expr := .diff «activ_filler» «nodrc_drw»

/-- `activ = activ_drw.join(activ_filler)`; rule_decks/layers_definitions.lvs 53. -/
def «activ» : Expr := .or «activ_drw_2» «activ_filler_2»

/-- `activ_mask = get_polygons(1, 20)`; rule_decks/layers_definitions.lvs 63. -/
def «activ_mask» : Expr := .drawn 1 20

/-- `activ_mask = activ_mask.not(nodrc_drw)`; rule_decks/layers_definitions.lvs 64. -/
def «activ_mask_2» : Expr := .diff «activ_mask» «nodrc_drw»

/-- `gatpoly_drw = get_polygons(5, 0)`; rule_decks/layers_definitions.lvs 105. -/
def «gatpoly_drw» : Expr := .drawn 5 0

/-- `gatpoly_drw = gatpoly_drw.not(nodrc_drw)`; rule_decks/layers_definitions.lvs 106. -/
def «gatpoly_drw_2» : Expr := .diff «gatpoly_drw» «nodrc_drw»

/-- `gatpoly_filler = get_polygons(5, 22)`; rule_decks/layers_definitions.lvs 111. -/
def «gatpoly_filler» : Expr := .drawn 5 22

/-- `gatpoly_filler = gatpoly_filler.not(nodrc_drw)`; rule_decks/layers_definitions.lvs 112. -/
def «gatpoly_filler_2» : Expr := .diff «gatpoly_filler» «nodrc_drw»

/-- `gatpoly = gatpoly_drw.join(gatpoly_filler)`; rule_decks/layers_definitions.lvs 118. -/
def «gatpoly» : Expr := .or «gatpoly_drw_2» «gatpoly_filler_2»

/-- `cont_drw = get_polygons(6, 0)`; rule_decks/layers_definitions.lvs 152. -/
def «cont_drw» : Expr := .drawn 6 0

/-- `cont_drw = cont_drw.not(nodrc_drw)`; rule_decks/layers_definitions.lvs 153. -/
def «cont_drw_2» : Expr := .diff «cont_drw» «nodrc_drw»

/-- `nsd_drw = get_polygons(7, 0)`; rule_decks/layers_definitions.lvs 164. -/
def «nsd_drw» : Expr := .drawn 7 0

/-- `nsd_drw = nsd_drw.not(nodrc_drw)`; rule_decks/layers_definitions.lvs 165. -/
def «nsd_drw_2» : Expr := .diff «nsd_drw» «nodrc_drw»

/-- `nsd_block = get_polygons(7, 21)`; rule_decks/layers_definitions.lvs 170. -/
def «nsd_block» : Expr := .drawn 7 21

/-- `nsd_block = nsd_block.not(nodrc_drw)`; rule_decks/layers_definitions.lvs 171. -/
def «nsd_block_2» : Expr := .diff «nsd_block» «nodrc_drw»

/-- `metal1_drw = get_polygons(8, 0)`; rule_decks/layers_definitions.lvs 176. -/
def «metal1_drw» : Expr := .drawn 8 0

/-- `metal1_drw = metal1_drw.not(nodrc_drw)`; rule_decks/layers_definitions.lvs 177. -/
def «metal1_drw_2» : Expr := .diff «metal1_drw» «nodrc_drw»

/-- `metal1_filler = get_polygons(8, 22)`; rule_decks/layers_definitions.lvs 182. -/
def «metal1_filler» : Expr := .drawn 8 22

/-- `metal1_filler = metal1_filler.not(nodrc_drw)`; rule_decks/layers_definitions.lvs 183. -/
def «metal1_filler_2» : Expr := .diff «metal1_filler» «nodrc_drw»

/-- `metal1_slit = get_polygons(8, 24)`; rule_decks/layers_definitions.lvs 188. -/
def «metal1_slit» : Expr := .drawn 8 24

/-- `metal1_slit = metal1_slit.not(nodrc_drw)`; rule_decks/layers_definitions.lvs 189. -/
def «metal1_slit_2» : Expr := .diff «metal1_slit» «nodrc_drw»

/-- `metal1 = metal1_drw.join(metal1_filler).not(metal1_slit)`; rule_decks/layers_definitions.lvs 195. -/
def «metal1» : Expr := .diff (.or «metal1_drw_2» «metal1_filler_2») «metal1_slit_2»

/-- `metal1_text = labels(8, 25)`; rule_decks/layers_definitions.lvs 217. -/
def «metal1_text» : Expr := .text 8 25

/-- `metal1_text = metal1_text.not(nodrc_drw)`; rule_decks/layers_definitions.lvs 218. -/
def «metal1_text_2» : Expr := .diff «metal1_text» «nodrc_drw»

/-- `metal1_res = get_polygons(8, 29)`; rule_decks/layers_definitions.lvs 235. -/
def «metal1_res» : Expr := .drawn 8 29

/-- `metal1_res = metal1_res.not(nodrc_drw)`; rule_decks/layers_definitions.lvs 236. -/
def «metal1_res_2» : Expr := .diff «metal1_res» «nodrc_drw»

/-- `metal2_drw = get_polygons(10, 0)`; rule_decks/layers_definitions.lvs 283. -/
def «metal2_drw» : Expr := .drawn 10 0

/-- `metal2_drw = metal2_drw.not(nodrc_drw)`; rule_decks/layers_definitions.lvs 284. -/
def «metal2_drw_2» : Expr := .diff «metal2_drw» «nodrc_drw»

/-- `metal2_filler = get_polygons(10, 22)`; rule_decks/layers_definitions.lvs 289. -/
def «metal2_filler» : Expr := .drawn 10 22

/-- `metal2_filler = metal2_filler.not(nodrc_drw)`; rule_decks/layers_definitions.lvs 290. -/
def «metal2_filler_2» : Expr := .diff «metal2_filler» «nodrc_drw»

/-- `metal2_slit = get_polygons(10, 24)`; rule_decks/layers_definitions.lvs 295. -/
def «metal2_slit» : Expr := .drawn 10 24

/-- `metal2_slit = metal2_slit.not(nodrc_drw)`; rule_decks/layers_definitions.lvs 296. -/
def «metal2_slit_2» : Expr := .diff «metal2_slit» «nodrc_drw»

/-- `metal2 = metal2_drw.join(metal2_filler).not(metal2_slit)`; rule_decks/layers_definitions.lvs 302. -/
def «metal2» : Expr := .diff (.or «metal2_drw_2» «metal2_filler_2») «metal2_slit_2»

/-- `metal2_text = labels(10, 25)`; rule_decks/layers_definitions.lvs 324. -/
def «metal2_text» : Expr := .text 10 25

/-- `metal2_text = metal2_text.not(nodrc_drw)`; rule_decks/layers_definitions.lvs 325. -/
def «metal2_text_2» : Expr := .diff «metal2_text» «nodrc_drw»

/-- `metal2_res = get_polygons(10, 29)`; rule_decks/layers_definitions.lvs 342. -/
def «metal2_res» : Expr := .drawn 10 29

/-- `metal2_res = metal2_res.not(nodrc_drw)`; rule_decks/layers_definitions.lvs 343. -/
def «metal2_res_2» : Expr := .diff «metal2_res» «nodrc_drw»

/-- `psd_drw = get_polygons(14, 0)`; rule_decks/layers_definitions.lvs 372. -/
def «psd_drw» : Expr := .drawn 14 0

/-- `psd_drw = psd_drw.not(nodrc_drw)`; rule_decks/layers_definitions.lvs 373. -/
def «psd_drw_2» : Expr := .diff «psd_drw» «nodrc_drw»

/-- `via1_drw = get_polygons(19, 0)`; rule_decks/layers_definitions.lvs 390. -/
def «via1_drw» : Expr := .drawn 19 0

/-- `via1_drw = via1_drw.not(nodrc_drw)`; rule_decks/layers_definitions.lvs 391. -/
def «via1_drw_2» : Expr := .diff «via1_drw» «nodrc_drw»

/-- `res_drw = get_polygons(24, 0)`; rule_decks/layers_definitions.lvs 474. -/
def «res_drw» : Expr := .drawn 24 0

/-- `res_drw = res_drw.not(nodrc_drw)`; rule_decks/layers_definitions.lvs 475. -/
def «res_drw_2» : Expr := .diff «res_drw» «nodrc_drw»

/-- `trans_drw = get_polygons(26, 0)`; rule_decks/layers_definitions.lvs 486. -/
def «trans_drw» : Expr := .drawn 26 0

/-- `trans_drw = trans_drw.not(nodrc_drw)`; rule_decks/layers_definitions.lvs 487. -/
def «trans_drw_2» : Expr := .diff «trans_drw» «nodrc_drw»

/-- `ind_drw = get_polygons(27, 0)`; rule_decks/layers_definitions.lvs 492. -/
def «ind_drw» : Expr := .drawn 27 0

/-- `ind_drw = ind_drw.not(nodrc_drw)`; rule_decks/layers_definitions.lvs 493. -/
def «ind_drw_2» : Expr := .diff «ind_drw» «nodrc_drw»

/-- `ind_pin = get_polygons(27, 2)`; rule_decks/layers_definitions.lvs 498. -/
def «ind_pin» : Expr := .drawn 27 2

/-- `ind_pin = ind_pin.not(nodrc_drw)`; rule_decks/layers_definitions.lvs 499. -/
def «ind_pin_2» : Expr := .diff «ind_pin» «nodrc_drw»

/-- `ind_text = labels(27, 25)`; rule_decks/layers_definitions.lvs 504. -/
def «ind_text» : Expr := .text 27 25

/-- `ind_text = ind_text.not(nodrc_drw)`; rule_decks/layers_definitions.lvs 505. -/
def «ind_text_2» : Expr := .diff «ind_text» «nodrc_drw»

/-- `salblock_drw = get_polygons(28, 0)`; rule_decks/layers_definitions.lvs 510. -/
def «salblock_drw» : Expr := .drawn 28 0

/-- `salblock_drw = salblock_drw.not(nodrc_drw)`; rule_decks/layers_definitions.lvs 511. -/
def «salblock_drw_2» : Expr := .diff «salblock_drw» «nodrc_drw»

/-- `via2_drw = get_polygons(29, 0)`; rule_decks/layers_definitions.lvs 516. -/
def «via2_drw» : Expr := .drawn 29 0

/-- `via2_drw = via2_drw.not(nodrc_drw)`; rule_decks/layers_definitions.lvs 517. -/
def «via2_drw_2» : Expr := .diff «via2_drw» «nodrc_drw»

/-- `metal3_drw = get_polygons(30, 0)`; rule_decks/layers_definitions.lvs 522. -/
def «metal3_drw» : Expr := .drawn 30 0

/-- `metal3_drw = metal3_drw.not(nodrc_drw)`; rule_decks/layers_definitions.lvs 523. -/
def «metal3_drw_2» : Expr := .diff «metal3_drw» «nodrc_drw»

/-- `metal3_filler = get_polygons(30, 22)`; rule_decks/layers_definitions.lvs 528. -/
def «metal3_filler» : Expr := .drawn 30 22

/-- `metal3_filler = metal3_filler.not(nodrc_drw)`; rule_decks/layers_definitions.lvs 529. -/
def «metal3_filler_2» : Expr := .diff «metal3_filler» «nodrc_drw»

/-- `metal3_slit = get_polygons(30, 24)`; rule_decks/layers_definitions.lvs 534. -/
def «metal3_slit» : Expr := .drawn 30 24

/-- `metal3_slit = metal3_slit.not(nodrc_drw)`; rule_decks/layers_definitions.lvs 535. -/
def «metal3_slit_2» : Expr := .diff «metal3_slit» «nodrc_drw»

/-- `metal3 = metal3_drw.join(metal3_filler).not(metal3_slit)`; rule_decks/layers_definitions.lvs 541. -/
def «metal3» : Expr := .diff (.or «metal3_drw_2» «metal3_filler_2») «metal3_slit_2»

/-- `metal3_text = labels(30, 25)`; rule_decks/layers_definitions.lvs 563. -/
def «metal3_text» : Expr := .text 30 25

/-- `metal3_text = metal3_text.not(nodrc_drw)`; rule_decks/layers_definitions.lvs 564. -/
def «metal3_text_2» : Expr := .diff «metal3_text» «nodrc_drw»

/-- `metal3_res = get_polygons(30, 29)`; rule_decks/layers_definitions.lvs 581. -/
def «metal3_res» : Expr := .drawn 30 29

/-- `metal3_res = metal3_res.not(nodrc_drw)`; rule_decks/layers_definitions.lvs 582. -/
def «metal3_res_2» : Expr := .diff «metal3_res» «nodrc_drw»

/-- `nwell_drw = get_polygons(31, 0)`; rule_decks/layers_definitions.lvs 599. -/
def «nwell_drw» : Expr := .drawn 31 0

/-- `nwell_drw = nwell_drw.not(nodrc_drw)`; rule_decks/layers_definitions.lvs 600. -/
def «nwell_drw_2» : Expr := .diff «nwell_drw» «nodrc_drw»

/-- `nbulay_drw = get_polygons(32, 0)`; rule_decks/layers_definitions.lvs 611. -/
def «nbulay_drw» : Expr := .drawn 32 0

/-- `nbulay_drw = nbulay_drw.not(nodrc_drw)`; rule_decks/layers_definitions.lvs 612. -/
def «nbulay_drw_2» : Expr := .diff «nbulay_drw» «nodrc_drw»

/-- `emwind_drw = get_polygons(33, 0)`; rule_decks/layers_definitions.lvs 629. -/
def «emwind_drw» : Expr := .drawn 33 0

/-- `emwind_drw = emwind_drw.not(nodrc_drw)`; rule_decks/layers_definitions.lvs 630. -/
def «emwind_drw_2» : Expr := .diff «emwind_drw» «nodrc_drw»

/-- `mim_drw = get_polygons(36, 0)`; rule_decks/layers_definitions.lvs 647. -/
def «mim_drw» : Expr := .drawn 36 0

/-- `mim_drw = mim_drw.not(nodrc_drw)`; rule_decks/layers_definitions.lvs 648. -/
def «mim_drw_2» : Expr := .diff «mim_drw» «nodrc_drw»

/-- `substrate_drw = get_polygons(40, 0)`; rule_decks/layers_definitions.lvs 659. -/
def «substrate_drw» : Expr := .drawn 40 0

/-- `substrate_drw = substrate_drw.not(nodrc_drw)`; rule_decks/layers_definitions.lvs 660. -/
def «substrate_drw_2» : Expr := .diff «substrate_drw» «nodrc_drw»

/-- `thickgateox_drw = get_polygons(44, 0)`; rule_decks/layers_definitions.lvs 689. -/
def «thickgateox_drw» : Expr := .drawn 44 0

/-- `thickgateox_drw = thickgateox_drw.not(nodrc_drw)`; rule_decks/layers_definitions.lvs 690. -/
def «thickgateox_drw_2» : Expr := .diff «thickgateox_drw» «nodrc_drw»

/-- `pwell_block = get_polygons(46, 21)`; rule_decks/layers_definitions.lvs 713. -/
def «pwell_block» : Expr := .drawn 46 21

/-- `pwell_block = pwell_block.not(nodrc_drw)`; rule_decks/layers_definitions.lvs 714. -/
def «pwell_block_2» : Expr := .diff «pwell_block» «nodrc_drw»

/-- `via3_drw = get_polygons(49, 0)`; rule_decks/layers_definitions.lvs 725. -/
def «via3_drw» : Expr := .drawn 49 0

/-- `via3_drw = via3_drw.not(nodrc_drw)`; rule_decks/layers_definitions.lvs 726. -/
def «via3_drw_2» : Expr := .diff «via3_drw» «nodrc_drw»

/-- `metal4_drw = get_polygons(50, 0)`; rule_decks/layers_definitions.lvs 731. -/
def «metal4_drw» : Expr := .drawn 50 0

/-- `metal4_drw = metal4_drw.not(nodrc_drw)`; rule_decks/layers_definitions.lvs 732. -/
def «metal4_drw_2» : Expr := .diff «metal4_drw» «nodrc_drw»

/-- `metal4_filler = get_polygons(50, 22)`; rule_decks/layers_definitions.lvs 737. -/
def «metal4_filler» : Expr := .drawn 50 22

/-- `metal4_filler = metal4_filler.not(nodrc_drw)`; rule_decks/layers_definitions.lvs 738. -/
def «metal4_filler_2» : Expr := .diff «metal4_filler» «nodrc_drw»

/-- `metal4_slit = get_polygons(50, 24)`; rule_decks/layers_definitions.lvs 743. -/
def «metal4_slit» : Expr := .drawn 50 24

/-- `metal4_slit = metal4_slit.not(nodrc_drw)`; rule_decks/layers_definitions.lvs 744. -/
def «metal4_slit_2» : Expr := .diff «metal4_slit» «nodrc_drw»

/-- `metal4 = metal4_drw.join(metal4_filler).not(metal4_slit)`; rule_decks/layers_definitions.lvs 750. -/
def «metal4» : Expr := .diff (.or «metal4_drw_2» «metal4_filler_2») «metal4_slit_2»

/-- `metal4_text = labels(50, 25)`; rule_decks/layers_definitions.lvs 772. -/
def «metal4_text» : Expr := .text 50 25

/-- `metal4_text = metal4_text.not(nodrc_drw)`; rule_decks/layers_definitions.lvs 773. -/
def «metal4_text_2» : Expr := .diff «metal4_text» «nodrc_drw»

/-- `metal4_res = get_polygons(50, 29)`; rule_decks/layers_definitions.lvs 790. -/
def «metal4_res» : Expr := .drawn 50 29

/-- `metal4_res = metal4_res.not(nodrc_drw)`; rule_decks/layers_definitions.lvs 791. -/
def «metal4_res_2» : Expr := .diff «metal4_res» «nodrc_drw»

/-- `digisub_drw = get_polygons(60, 0)`; rule_decks/layers_definitions.lvs 832. -/
def «digisub_drw» : Expr := .drawn 60 0

/-- `digisub_drw = digisub_drw.not(nodrc_drw)`; rule_decks/layers_definitions.lvs 833. -/
def «digisub_drw_2» : Expr := .diff «digisub_drw» «nodrc_drw»

/-- `text_drw = labels(63, 0)`; rule_decks/layers_definitions.lvs 838. -/
def «text_drw» : Expr := .text 63 0

/-- `text_drw = text_drw.not(nodrc_drw)`; rule_decks/layers_definitions.lvs 839. -/
def «text_drw_2» : Expr := .diff «text_drw» «nodrc_drw»

/-- `via4_drw = get_polygons(66, 0)`; rule_decks/layers_definitions.lvs 844. -/
def «via4_drw» : Expr := .drawn 66 0

/-- `via4_drw = via4_drw.not(nodrc_drw)`; rule_decks/layers_definitions.lvs 845. -/
def «via4_drw_2» : Expr := .diff «via4_drw» «nodrc_drw»

/-- `metal5_drw = get_polygons(67, 0)`; rule_decks/layers_definitions.lvs 850. -/
def «metal5_drw» : Expr := .drawn 67 0

/-- `metal5_drw = metal5_drw.not(nodrc_drw)`; rule_decks/layers_definitions.lvs 851. -/
def «metal5_drw_2» : Expr := .diff «metal5_drw» «nodrc_drw»

/-- `metal5_filler = get_polygons(67, 22)`; rule_decks/layers_definitions.lvs 856. -/
def «metal5_filler» : Expr := .drawn 67 22

/-- `metal5_filler = metal5_filler.not(nodrc_drw)`; rule_decks/layers_definitions.lvs 857. -/
def «metal5_filler_2» : Expr := .diff «metal5_filler» «nodrc_drw»

/-- `metal5_slit = get_polygons(67, 24)`; rule_decks/layers_definitions.lvs 862. -/
def «metal5_slit» : Expr := .drawn 67 24

/-- `metal5_slit = metal5_slit.not(nodrc_drw)`; rule_decks/layers_definitions.lvs 863. -/
def «metal5_slit_2» : Expr := .diff «metal5_slit» «nodrc_drw»

/-- `metal5 = metal5_drw.join(metal5_filler).not(metal5_slit)`; rule_decks/layers_definitions.lvs 869. -/
def «metal5» : Expr := .diff (.or «metal5_drw_2» «metal5_filler_2») «metal5_slit_2»

/-- `metal5_text = labels(67, 25)`; rule_decks/layers_definitions.lvs 891. -/
def «metal5_text» : Expr := .text 67 25

/-- `metal5_text = metal5_text.not(nodrc_drw)`; rule_decks/layers_definitions.lvs 892. -/
def «metal5_text_2» : Expr := .diff «metal5_text» «nodrc_drw»

/-- `metal5_res = get_polygons(67, 29)`; rule_decks/layers_definitions.lvs 909. -/
def «metal5_res» : Expr := .drawn 67 29

/-- `metal5_res = metal5_res.not(nodrc_drw)`; rule_decks/layers_definitions.lvs 910. -/
def «metal5_res_2» : Expr := .diff «metal5_res» «nodrc_drw»

/-- `recog_esd = get_polygons(99, 30)`; rule_decks/layers_definitions.lvs 1101. -/
def «recog_esd» : Expr := .drawn 99 30

/-- `recog_esd = recog_esd.not(nodrc_drw)`; rule_decks/layers_definitions.lvs 1102. -/
def «recog_esd_2» : Expr := .diff «recog_esd» «nodrc_drw»

/-- `recog_diode = get_polygons(99, 31)`; rule_decks/layers_definitions.lvs 1107. -/
def «recog_diode» : Expr := .drawn 99 31

/-- `recog_diode = recog_diode.not(nodrc_drw)`; rule_decks/layers_definitions.lvs 1108. -/
def «recog_diode_2» : Expr := .diff «recog_diode» «nodrc_drw»

/-- `extblock_drw = get_polygons(111, 0)`; rule_decks/layers_definitions.lvs 1233. -/
def «extblock_drw» : Expr := .drawn 111 0

/-- `extblock_drw = extblock_drw.not(nodrc_drw)`; rule_decks/layers_definitions.lvs 1234. -/
def «extblock_drw_2» : Expr := .diff «extblock_drw» «nodrc_drw»

/-- `topvia1_drw = get_polygons(125, 0)`; rule_decks/layers_definitions.lvs 1305. -/
def «topvia1_drw» : Expr := .drawn 125 0

/-- `topvia1_drw = topvia1_drw.not(nodrc_drw)`; rule_decks/layers_definitions.lvs 1306. -/
def «topvia1_drw_2» : Expr := .diff «topvia1_drw» «nodrc_drw»

/-- `topmetal1_drw = get_polygons(126, 0)`; rule_decks/layers_definitions.lvs 1311. -/
def «topmetal1_drw» : Expr := .drawn 126 0

/-- `topmetal1_drw = topmetal1_drw.not(nodrc_drw)`; rule_decks/layers_definitions.lvs 1312. -/
def «topmetal1_drw_2» : Expr := .diff «topmetal1_drw» «nodrc_drw»

/-- `topmetal1_filler = get_polygons(126, 22)`; rule_decks/layers_definitions.lvs 1317. -/
def «topmetal1_filler» : Expr := .drawn 126 22

/-- `topmetal1_filler = topmetal1_filler.not(nodrc_drw)`; rule_decks/layers_definitions.lvs 1318. -/
def «topmetal1_filler_2» : Expr := .diff «topmetal1_filler» «nodrc_drw»

/-- `topmetal1_slit = get_polygons(126, 24)`; rule_decks/layers_definitions.lvs 1323. -/
def «topmetal1_slit» : Expr := .drawn 126 24

/-- `topmetal1_slit = topmetal1_slit.not(nodrc_drw)`; rule_decks/layers_definitions.lvs 1324. -/
def «topmetal1_slit_2» : Expr := .diff «topmetal1_slit» «nodrc_drw»

/-- `topmetal1 = topmetal1_drw.join(topmetal1_filler).not(topmetal1_slit)`; rule_decks/layers_definitions.lvs 1330. -/
def «topmetal1» : Expr := .diff (.or «topmetal1_drw_2» «topmetal1_filler_2») «topmetal1_slit_2»

/-- `topmetal1_text = labels(126, 25)`; rule_decks/layers_definitions.lvs 1352. -/
def «topmetal1_text» : Expr := .text 126 25

/-- `topmetal1_text = topmetal1_text.not(nodrc_drw)`; rule_decks/layers_definitions.lvs 1353. -/
def «topmetal1_text_2» : Expr := .diff «topmetal1_text» «nodrc_drw»

/-- `topmetal1_res = get_polygons(126, 29)`; rule_decks/layers_definitions.lvs 1364. -/
def «topmetal1_res» : Expr := .drawn 126 29

/-- `topmetal1_res = topmetal1_res.not(nodrc_drw)`; rule_decks/layers_definitions.lvs 1365. -/
def «topmetal1_res_2» : Expr := .diff «topmetal1_res» «nodrc_drw»

/-- `polyres_drw = get_polygons(128, 0)`; rule_decks/layers_definitions.lvs 1388. -/
def «polyres_drw» : Expr := .drawn 128 0

/-- `polyres_drw = polyres_drw.not(nodrc_drw)`; rule_decks/layers_definitions.lvs 1389. -/
def «polyres_drw_2» : Expr := .diff «polyres_drw» «nodrc_drw»

/-- `vmim_drw = get_polygons(129, 0)`; rule_decks/layers_definitions.lvs 1400. -/
def «vmim_drw» : Expr := .drawn 129 0

/-- `vmim_drw = vmim_drw.not(nodrc_drw)`; rule_decks/layers_definitions.lvs 1401. -/
def «vmim_drw_2» : Expr := .diff «vmim_drw» «nodrc_drw»

/-- `topvia2_drw = get_polygons(133, 0)`; rule_decks/layers_definitions.lvs 1418. -/
def «topvia2_drw» : Expr := .drawn 133 0

/-- `topvia2_drw = topvia2_drw.not(nodrc_drw)`; rule_decks/layers_definitions.lvs 1419. -/
def «topvia2_drw_2» : Expr := .diff «topvia2_drw» «nodrc_drw»

/-- `topmetal2_drw = get_polygons(134, 0)`; rule_decks/layers_definitions.lvs 1424. -/
def «topmetal2_drw» : Expr := .drawn 134 0

/-- `topmetal2_drw = topmetal2_drw.not(nodrc_drw)`; rule_decks/layers_definitions.lvs 1425. -/
def «topmetal2_drw_2» : Expr := .diff «topmetal2_drw» «nodrc_drw»

/-- `topmetal2_filler = get_polygons(134, 22)`; rule_decks/layers_definitions.lvs 1430. -/
def «topmetal2_filler» : Expr := .drawn 134 22

/-- `topmetal2_filler = topmetal2_filler.not(nodrc_drw)`; rule_decks/layers_definitions.lvs 1431. -/
def «topmetal2_filler_2» : Expr := .diff «topmetal2_filler» «nodrc_drw»

/-- `topmetal2_slit = get_polygons(134, 24)`; rule_decks/layers_definitions.lvs 1436. -/
def «topmetal2_slit» : Expr := .drawn 134 24

/-- `topmetal2_slit = topmetal2_slit.not(nodrc_drw)`; rule_decks/layers_definitions.lvs 1437. -/
def «topmetal2_slit_2» : Expr := .diff «topmetal2_slit» «nodrc_drw»

/-- `topmetal2 = topmetal2_drw.join(topmetal2_filler).not(topmetal2_slit)`; rule_decks/layers_definitions.lvs 1443. -/
def «topmetal2» : Expr := .diff (.or «topmetal2_drw_2» «topmetal2_filler_2») «topmetal2_slit_2»

/-- `topmetal2_text = labels(134, 25)`; rule_decks/layers_definitions.lvs 1465. -/
def «topmetal2_text» : Expr := .text 134 25

/-- `topmetal2_text = topmetal2_text.not(nodrc_drw)`; rule_decks/layers_definitions.lvs 1466. -/
def «topmetal2_text_2» : Expr := .diff «topmetal2_text» «nodrc_drw»

/-- `topmetal2_res = get_polygons(134, 29)`; rule_decks/layers_definitions.lvs 1477. -/
def «topmetal2_res» : Expr := .drawn 134 29

/-- `topmetal2_res = topmetal2_res.not(nodrc_drw)`; rule_decks/layers_definitions.lvs 1478. -/
def «topmetal2_res_2» : Expr := .diff «topmetal2_res» «nodrc_drw»

/-- `emwihv_drw = get_polygons(156, 0)`; rule_decks/layers_definitions.lvs 1729. -/
def «emwihv_drw» : Expr := .drawn 156 0

/-- `emwihv_drw = emwihv_drw.not(nodrc_drw)`; rule_decks/layers_definitions.lvs 1730. -/
def «emwihv_drw_2» : Expr := .diff «emwihv_drw» «nodrc_drw»

/-- `nwell_iso = nwell_drw.and(nbulay_drw)`; rule_decks/general_derivations.lvs 38. -/
def «nwell_iso» : Expr := .and «nwell_drw_2» «nbulay_drw_2»

/-- `nwell_holes = nwell_drw.holes.not(nwell_drw)`; rule_decks/general_derivations.lvs 39. -/
def «nwell_holes» : Expr := .diff (.made "nwell_drw.holes" «nwell_drw_2») «nwell_drw_2»

/-- `pwell_allowed = CHIP.not(pwell_block)`; rule_decks/general_derivations.lvs 42. -/
def «pwell_allowed» : Expr := .diff (.other "CHIP") «pwell_block_2»

/-- `digisub_gap = digisub_drw.not(digisub_drw.sized(-1.nm))`; rule_decks/general_derivations.lvs 43. -/
def «digisub_gap» : Expr := .diff «digisub_drw_2» (.made "digisub_drw.sized(-1.nm)" «digisub_drw_2»)

/-- `pwell = pwell_allowed.not(nwell_drw).not(digisub_gap)`; rule_decks/general_derivations.lvs 44. -/
def «pwell» : Expr := .diff (.diff «pwell_allowed» «nwell_drw_2») «digisub_gap»

/-- `pwell_sub = pwell_allowed.not(digisub_drw).not(nbulay_drw.interacting(nwell_holes))`; rule_decks/general_derivations.lvs 47. -/
def «pwell_sub» : Expr := .diff (.diff «pwell_allowed» «digisub_drw_2») (.some "nbulay_drw.interacting(nwell_holes)" «nbulay_drw_2»)

/-- `nactiv = activ.not(psd_drw.join(nsd_block))`; rule_decks/general_derivations.lvs 50. -/
def «nactiv» : Expr := .diff «activ» (.or «psd_drw_2» «nsd_block_2»)

/-- `pactiv = activ.and(psd_drw)`; rule_decks/general_derivations.lvs 51. -/
def «pactiv» : Expr := .and «activ» «psd_drw_2»

/-- `res_mk = polyres_drw.join(res_drw)`; rule_decks/general_derivations.lvs 54. -/
def «res_mk» : Expr := .or «polyres_drw_2» «res_drw_2»

/-- `poly_con = gatpoly.not(res_mk)`; rule_decks/general_derivations.lvs 55. -/
def «poly_con» : Expr := .diff «gatpoly» «res_mk»

/-- `metal1_con = metal1.not(metal1_res)`; rule_decks/general_derivations.lvs 56. -/
def «metal1_con» : Expr := .diff «metal1» «metal1_res_2»

/-- `metal2_con = metal2.not(metal2_res)`; rule_decks/general_derivations.lvs 57. -/
def «metal2_con» : Expr := .diff «metal2» «metal2_res_2»

/-- `metal3_con = metal3.not(metal3_res)`; rule_decks/general_derivations.lvs 58. -/
def «metal3_con» : Expr := .diff «metal3» «metal3_res_2»

/-- `metal4_con = metal4.not(metal4_res)`; rule_decks/general_derivations.lvs 59. -/
def «metal4_con» : Expr := .diff «metal4» «metal4_res_2»

/-- `metal5_con = metal5.not(metal5_res)`; rule_decks/general_derivations.lvs 60. -/
def «metal5_con» : Expr := .diff «metal5» «metal5_res_2»

/-- `topmetal1_con = topmetal1.not(topmetal1_res).not(ind_drw)`; rule_decks/general_derivations.lvs 61. -/
def «topmetal1_con» : Expr := .diff (.diff «topmetal1» «topmetal1_res_2») «ind_drw_2»

/-- `topmetal2_con = topmetal2.not(topmetal2_res).not(ind_drw)`; rule_decks/general_derivations.lvs 62. -/
def «topmetal2_con» : Expr := .diff (.diff «topmetal2» «topmetal2_res_2») «ind_drw_2»

/-- `tgate = gatpoly.and(activ).not(res_mk)`; rule_decks/general_derivations.lvs 65. -/
def «tgate» : Expr := .diff (.and «gatpoly» «activ») «res_mk»

/-- `ngate = nactiv.and(tgate)`; rule_decks/general_derivations.lvs 66. -/
def «ngate» : Expr := .and «nactiv» «tgate»

/-- `pgate = pactiv.and(tgate)`; rule_decks/general_derivations.lvs 67. -/
def «pgate» : Expr := .and «pactiv» «tgate»

/-- `ngate_hv_base = ngate.and(thickgateox_drw)`; rule_decks/general_derivations.lvs 70. -/
def «ngate_hv_base» : Expr := .and «ngate» «thickgateox_drw_2»

/-- `nsd_fet = nactiv.not(nwell_drw).interacting(ngate).not(ngate).not_interacting(res_mk)`; rule_decks/general_derivations.lvs 74. -/
def «nsd_fet» : Expr := .some "nactiv.not(nwell_drw).interacting(ngate).not(ngate).not_interacting(res_mk)" (.diff (.some "nactiv.not(nwell_drw).interacting(ngate)" (.diff «nactiv» «nwell_drw_2»)) «ngate»)

/-- `psd_fet = pactiv.and(nwell_drw).interacting(pgate).not(pgate).not_interacting(res_mk)`; rule_decks/general_derivations.lvs 75. -/
def «psd_fet» : Expr := .some "pactiv.and(nwell_drw).interacting(pgate).not(pgate).not_interacting(res_mk)" (.diff (.some "pactiv.and(nwell_drw).interacting(pgate)" (.and «pactiv» «nwell_drw_2»)) «pgate»)

/-- `ntap1_mk = nwell_drw.interacting(ntap1_lbl)`; rule_decks/general_derivations.lvs 83. -/
def «ntap1_mk» : Expr := .some "nwell_drw.interacting(ntap1_lbl)" «nwell_drw_2»

/-- `ptap1_mk = substrate_drw.and(pwell).interacting(ptap1_lbl)`; rule_decks/general_derivations.lvs 86. -/
def «ptap1_mk» : Expr := .some "substrate_drw.and(pwell).interacting(ptap1_lbl)" (.and «substrate_drw_2» «pwell»)

/-- `ntap = nactiv.and(nwell_drw).not(recog_diode).not(gatpoly).not(ntap1_mk)`; rule_decks/general_derivations.lvs 89. -/
def «ntap» : Expr := .diff (.diff (.diff (.and «nactiv» «nwell_drw_2») «recog_diode_2») «gatpoly») «ntap1_mk»

/-- `ptap = pactiv.and(pwell).not(ptap1_mk).not(recog_diode).not(gatpoly)`; rule_decks/general_derivations.lvs 90. -/
def «ptap» : Expr := .diff (.diff (.diff (.and «pactiv» «pwell») «ptap1_mk») «recog_diode_2») «gatpoly»

/-- `ptap_holes = ptap.holes`; rule_decks/general_derivations.lvs 91. -/
def «ptap_holes» : Expr := .made "ptap.holes" «ptap»

/-- `nsd_sal = nsd_fet.not(salblock_drw)`; rule_decks/general_derivations.lvs 95. -/
def «nsd_sal» : Expr := .diff «nsd_fet» «salblock_drw_2»

/-- `psd_sal = psd_fet.not(salblock_drw)`; rule_decks/general_derivations.lvs 96. -/
def «psd_sal» : Expr := .diff «psd_fet» «salblock_drw_2»

/-- `ntap_sal = ntap.not(salblock_drw)`; rule_decks/general_derivations.lvs 99. -/
def «ntap_sal» : Expr := .diff «ntap» «salblock_drw_2»

/-- `ptap_sal = ptap.not(salblock_drw)`; rule_decks/general_derivations.lvs 100. -/
def «ptap_sal» : Expr := .diff «ptap» «salblock_drw_2»

/-- `nsd_ptap_abutt = nsd_sal.edges.and(ptap_sal.edges).extended(:in => 1.nm, :out => 1.nm)`; rule_decks/general_derivations.lvs 103. -/
def «nsd_ptap_abutt» : Expr := .made "nsd_sal.edges.and(ptap_sal.edges).extended(:in=>1.nm,:out=>1.nm)" (.and (.made "nsd_sal.edges" «nsd_sal») (.made "ptap_sal.edges" «ptap_sal»))

/-- `psd_ntap_abutt = psd_sal.edges.and(ntap_sal.edges).extended(:in => 1.nm, :out => 1.nm)`; rule_decks/general_derivations.lvs 104. -/
def «psd_ntap_abutt» : Expr := .made "psd_sal.edges.and(ntap_sal.edges).extended(:in=>1.nm,:out=>1.nm)" (.and (.made "psd_sal.edges" «psd_sal») (.made "ntap_sal.edges" «ntap_sal»))

/-- `bjt_exclude = gatpoly.join(pwell_block).join(nsd_drw)`; rule_decks/bjt_derivations.lvs 32. -/
def «bjt_exclude» : Expr := .or (.or «gatpoly» «pwell_block_2») «nsd_drw_2»

/-- `npn_exclude = nwell_drw.join(psd_drw).join(nbulay_drw).join(bjt_exclude)`; rule_decks/bjt_derivations.lvs 37. -/
def «npn_exclude» : Expr := .or (.or (.or «nwell_drw_2» «psd_drw_2») «nbulay_drw_2») «bjt_exclude»

/-- `npn_mk = trans_drw.and(pwell).and(ptap_holes)`; rule_decks/bjt_derivations.lvs 40. -/
def «npn_mk» : Expr := .and (.and «trans_drw_2» «pwell») «ptap_holes»

/-- `npn_b_exc = emwind_drw.join(emwihv_drw).join(npn_exclude)`; rule_decks/bjt_derivations.lvs 43. -/
def «npn_b_exc» : Expr := .or (.or «emwind_drw_2» «emwihv_drw_2») «npn_exclude»

/-- `npn_sub = npn_mk.not(npn_exclude)`; rule_decks/bjt_derivations.lvs 44. -/
def «npn_sub» : Expr := .diff «npn_mk» «npn_exclude»

/-- `npn_dev = activ.join(activ_mask).and(npn_mk)`; rule_decks/bjt_derivations.lvs 45. -/
def «npn_dev» : Expr := .and (.or «activ» «activ_mask_2») «npn_mk»

/-- `npn13G2_e_exc = activ.join(emwihv_drw).join(npn_exclude)`; rule_decks/bjt_derivations.lvs 49. -/
def «npn13G2_e_exc» : Expr := .or (.or «activ» «emwihv_drw_2») «npn_exclude»

/-- `npn13G2_b_exc = npn_b_exc.join(activ_mask)`; rule_decks/bjt_derivations.lvs 50. -/
def «npn13G2_b_exc» : Expr := .or «npn_b_exc» «activ_mask_2»

/-- `npn13G2_e_ = emwind_drw.and(activ_mask).and(nsd_block).and(npn_mk).not(npn13G2_e_exc)`; rule_decks/bjt_derivations.lvs 53. -/
def «npn13G2_e_» : Expr := .diff (.and (.and (.and «emwind_drw_2» «activ_mask_2») «nsd_block_2») «npn_mk») «npn13G2_e_exc»

/-- `npn13G2_e_pin = npn13G2_e_.with_bbox_min(0.07.um).with_bbox_max(0.9.um).with_area(0.063.um)`; rule_decks/bjt_derivations.lvs 55. -/
def «npn13G2_e_pin» : Expr := .some "npn13G2_e_.with_bbox_min(0.07.um).with_bbox_max(0.9.um).with_area(0.063.um)" (.some "npn13G2_e_.with_bbox_min(0.07.um).with_bbox_max(0.9.um)" (.some "npn13G2_e_.with_bbox_min(0.07.um)" «npn13G2_e_»))

/-- `npn13G2_b_pin = nsd_block.and(npn_mk).not(npn13G2_b_exc)`; rule_decks/bjt_derivations.lvs 56. -/
def «npn13G2_b_pin» : Expr := .diff (.and «nsd_block_2» «npn_mk») «npn13G2_b_exc»

/-- `npn13G2_c_pin = activ.and(npn_mk).not_overlapping(npn_c_exc)`; rule_decks/bjt_derivations.lvs 57. -/
def «npn13G2_c_pin» : Expr := .some "activ.and(npn_mk).not_overlapping(npn_c_exc)" (.and «activ» «npn_mk»)

/-- `npn13G2_dev = npn_dev.join(nsd_block).extents.covering(npn13G2_e_pin).covering(npn13G2_b_pin).covering(npn13G2_c_pin)`; rule_decks/bjt_derivations.lvs 59. -/
def «npn13G2_dev» : Expr := .some "npn_dev.join(nsd_block).extents.covering(npn13G2_e_pin).covering(npn13G2_b_pin).covering(npn13G2_c_pin)" (.some "npn_dev.join(nsd_block).extents.covering(npn13G2_e_pin).covering(npn13G2_b_pin)" (.some "npn_dev.join(nsd_block).extents.covering(npn13G2_e_pin)" (.made "npn_dev.join(nsd_block).extents" (.or «npn_dev» «nsd_block_2»))))

/-- `npn13G2_c = npn13G2_dev.sized(-1.nm)`; rule_decks/bjt_derivations.lvs 60. -/
def «npn13G2_c» : Expr := .made "npn13G2_dev.sized(-1.nm)" «npn13G2_dev»

/-- `npn13G2_tc = npn13G2_dev.not(npn13G2_c).interacting(npn13G2_c_pin)`; rule_decks/bjt_derivations.lvs 61. -/
def «npn13G2_tc» : Expr := .some "npn13G2_dev.not(npn13G2_c).interacting(npn13G2_c_pin)" (.diff «npn13G2_dev» «npn13G2_c»)

/-- `npn13G2_b = npn13G2_dev.not(npn13G2_c_pin)`; rule_decks/bjt_derivations.lvs 62. -/
def «npn13G2_b» : Expr := .diff «npn13G2_dev» «npn13G2_c_pin»

/-- `npn13G2_tb = npn13G2_b.not(npn13G2_e_pin).merged`; rule_decks/bjt_derivations.lvs 63. -/
def «npn13G2_tb» : Expr := .diff «npn13G2_b» «npn13G2_e_pin»

/-- `npn13G2_e = npn13G2_e_pin`; rule_decks/bjt_derivations.lvs 64. -/
def «npn13G2_e» : Expr := «npn13G2_e_pin»

/-- `npn13G2_te = npn13G2_e`; rule_decks/bjt_derivations.lvs 65. -/
def «npn13G2_te» : Expr := «npn13G2_e»

/-- `npn13G2l_e_exc = activ_mask.join(nsd_block).join(emwihv_drw).join(npn_exclude)`; rule_decks/bjt_derivations.lvs 69. -/
def «npn13G2l_e_exc» : Expr := .or (.or (.or «activ_mask_2» «nsd_block_2») «emwihv_drw_2») «npn_exclude»

/-- `npn13G2l_b_exc = npn_b_exc.join(activ).join(nsd_block)`; rule_decks/bjt_derivations.lvs 70. -/
def «npn13G2l_b_exc» : Expr := .or (.or «npn_b_exc» «activ») «nsd_block_2»

/-- `npn13G2l_e_ = emwind_drw.and(activ).and(npn_mk).not(npn13G2l_e_exc)`; rule_decks/bjt_derivations.lvs 73. -/
def «npn13G2l_e_» : Expr := .diff (.and (.and «emwind_drw_2» «activ») «npn_mk») «npn13G2l_e_exc»

/-- `npn13G2l_e_pin = npn13G2l_e_.with_bbox_min(0.07.um).with_bbox_max(1.um, 2.5.um).with_area(0.07.um, 0.175.um)`; rule_decks/bjt_derivations.lvs 75. -/
def «npn13G2l_e_pin» : Expr := .some "npn13G2l_e_.with_bbox_min(0.07.um).with_bbox_max(1.um,2.5.um).with_area(0.07.um,0.175.um)" (.some "npn13G2l_e_.with_bbox_min(0.07.um).with_bbox_max(1.um,2.5.um)" (.some "npn13G2l_e_.with_bbox_min(0.07.um)" «npn13G2l_e_»))

/-- `npn13G2l_b_pin = activ_mask.and(npn_mk).not(npn13G2l_b_exc)`; rule_decks/bjt_derivations.lvs 76. -/
def «npn13G2l_b_pin» : Expr := .diff (.and «activ_mask_2» «npn_mk») «npn13G2l_b_exc»

/-- `npn13G2l_c_pin = npn13G2_c_pin`; rule_decks/bjt_derivations.lvs 77. -/
def «npn13G2l_c_pin» : Expr := «npn13G2_c_pin»

/-- `npn13G2l_dev = npn_dev.covering(npn13G2l_e_pin).covering(npn13G2l_b_pin).covering(npn13G2l_c_pin)`; rule_decks/bjt_derivations.lvs 79. -/
def «npn13G2l_dev» : Expr := .some "npn_dev.covering(npn13G2l_e_pin).covering(npn13G2l_b_pin).covering(npn13G2l_c_pin)" (.some "npn_dev.covering(npn13G2l_e_pin).covering(npn13G2l_b_pin)" (.some "npn_dev.covering(npn13G2l_e_pin)" «npn_dev»))

/-- `npn13G2l_c = npn13G2l_dev.sized(1.nm)`; rule_decks/bjt_derivations.lvs 80. -/
def «npn13G2l_c» : Expr := .made "npn13G2l_dev.sized(1.nm)" «npn13G2l_dev»

/-- `npn13G2l_tc = npn13G2l_c.not(npn13G2l_dev).interacting(npn13G2l_c_pin)`; rule_decks/bjt_derivations.lvs 81. -/
def «npn13G2l_tc» : Expr := .some "npn13G2l_c.not(npn13G2l_dev).interacting(npn13G2l_c_pin)" (.diff «npn13G2l_c» «npn13G2l_dev»)

/-- `npn13G2l_b = npn13G2l_dev.not(npn13G2l_c_pin)`; rule_decks/bjt_derivations.lvs 82. -/
def «npn13G2l_b» : Expr := .diff «npn13G2l_dev» «npn13G2l_c_pin»

/-- `npn13G2l_tb = npn13G2l_b.not(npn13G2l_e_pin).merged`; rule_decks/bjt_derivations.lvs 83. -/
def «npn13G2l_tb» : Expr := .diff «npn13G2l_b» «npn13G2l_e_pin»

/-- `npn13G2l_e = npn13G2l_e_pin`; rule_decks/bjt_derivations.lvs 84. -/
def «npn13G2l_e» : Expr := «npn13G2l_e_pin»

/-- `npn13G2l_te = npn13G2l_e`; rule_decks/bjt_derivations.lvs 85. -/
def «npn13G2l_te» : Expr := «npn13G2l_e»

/-- `npn13G2v_e_exc = activ_mask.join(nsd_block).join(emwind_drw).join(npn_exclude)`; rule_decks/bjt_derivations.lvs 89. -/
def «npn13G2v_e_exc» : Expr := .or (.or (.or «activ_mask_2» «nsd_block_2») «emwind_drw_2») «npn_exclude»

/-- `npn13G2v_e_ = emwihv_drw.and(activ).and(npn_mk).not(npn13G2v_e_exc)`; rule_decks/bjt_derivations.lvs 92. -/
def «npn13G2v_e_» : Expr := .diff (.and (.and «emwihv_drw_2» «activ») «npn_mk») «npn13G2v_e_exc»

/-- `npn13G2v_e_pin = npn13G2v_e_.with_bbox_min(0.12.um).with_bbox_max(1.um, 5.um).with_area(0.12.um, 0.6.um)`; rule_decks/bjt_derivations.lvs 94. -/
def «npn13G2v_e_pin» : Expr := .some "npn13G2v_e_.with_bbox_min(0.12.um).with_bbox_max(1.um,5.um).with_area(0.12.um,0.6.um)" (.some "npn13G2v_e_.with_bbox_min(0.12.um).with_bbox_max(1.um,5.um)" (.some "npn13G2v_e_.with_bbox_min(0.12.um)" «npn13G2v_e_»))

/-- `npn13G2v_b_pin = npn13G2l_b_pin`; rule_decks/bjt_derivations.lvs 95. -/
def «npn13G2v_b_pin» : Expr := «npn13G2l_b_pin»

/-- `npn13G2v_c_pin = npn13G2l_c_pin`; rule_decks/bjt_derivations.lvs 96. -/
def «npn13G2v_c_pin» : Expr := «npn13G2l_c_pin»

/-- `npn13G2v_dev = npn_dev.covering(npn13G2v_e_pin).covering(npn13G2v_b_pin).covering(npn13G2v_c_pin)`; rule_decks/bjt_derivations.lvs 98. -/
def «npn13G2v_dev» : Expr := .some "npn_dev.covering(npn13G2v_e_pin).covering(npn13G2v_b_pin).covering(npn13G2v_c_pin)" (.some "npn_dev.covering(npn13G2v_e_pin).covering(npn13G2v_b_pin)" (.some "npn_dev.covering(npn13G2v_e_pin)" «npn_dev»))

/-- `npn13G2v_c = npn13G2v_dev.sized(1.nm)`; rule_decks/bjt_derivations.lvs 99. -/
def «npn13G2v_c» : Expr := .made "npn13G2v_dev.sized(1.nm)" «npn13G2v_dev»

/-- `npn13G2v_tc = npn13G2v_c.not(npn13G2v_dev).interacting(npn13G2v_c_pin)`; rule_decks/bjt_derivations.lvs 100. -/
def «npn13G2v_tc» : Expr := .some "npn13G2v_c.not(npn13G2v_dev).interacting(npn13G2v_c_pin)" (.diff «npn13G2v_c» «npn13G2v_dev»)

/-- `npn13G2v_b = npn13G2v_dev.not(npn13G2v_c_pin)`; rule_decks/bjt_derivations.lvs 101. -/
def «npn13G2v_b» : Expr := .diff «npn13G2v_dev» «npn13G2v_c_pin»

/-- `npn13G2v_tb = npn13G2v_b.not(npn13G2v_e_pin).merged`; rule_decks/bjt_derivations.lvs 102. -/
def «npn13G2v_tb» : Expr := .diff «npn13G2v_b» «npn13G2v_e_pin»

/-- `npn13G2v_e = npn13G2v_e_pin`; rule_decks/bjt_derivations.lvs 103. -/
def «npn13G2v_e» : Expr := «npn13G2v_e_pin»

/-- `npn13G2v_te = npn13G2v_e`; rule_decks/bjt_derivations.lvs 104. -/
def «npn13G2v_te» : Expr := «npn13G2v_e»

/-- `pnp_exclude = trans_drw.join(emwind_drw)`; rule_decks/bjt_derivations.lvs 112. -/
def «pnp_exclude» : Expr := .or «trans_drw_2» «emwind_drw_2»

/-- `pnp_mk = ptap_holes.not(pnp_exclude)`; rule_decks/bjt_derivations.lvs 115. -/
def «pnp_mk» : Expr := .diff «ptap_holes» «pnp_exclude»

/-- `pnp_e = pactiv.and(pnp_mk).and(nwell_iso)`; rule_decks/bjt_derivations.lvs 118. -/
def «pnp_e» : Expr := .and (.and «pactiv» «pnp_mk») «nwell_iso»

/-- `pnp_b = nactiv.and(pnp_mk).and(nwell_iso)`; rule_decks/bjt_derivations.lvs 119. -/
def «pnp_b» : Expr := .and (.and «nactiv» «pnp_mk») «nwell_iso»

/-- `pnp_c = ptap.interacting(pnp_mk).not(pnp_exclude)`; rule_decks/bjt_derivations.lvs 120. -/
def «pnp_c» : Expr := .diff (.some "ptap.interacting(pnp_mk)" «ptap») «pnp_exclude»

/-- `pnp_mpa_e = pnp_e.and(pnp_b.extents).and(pnp_c.extents)`; rule_decks/bjt_derivations.lvs 123. -/
def «pnp_mpa_e» : Expr := .and (.and «pnp_e» (.made "pnp_b.extents" «pnp_b»)) (.made "pnp_c.extents" «pnp_c»)

/-- `pnp_mpa_b = pnp_b.interacting(pnp_b.extents.interacting(pnp_mpa_e))`; rule_decks/bjt_derivations.lvs 124. -/
def «pnp_mpa_b» : Expr := .some "pnp_b.interacting(pnp_b.extents.interacting(pnp_mpa_e))" «pnp_b»

/-- `pnp_mpa_c = pnp_c.interacting(pnp_c.extents.interacting(pnp_mpa_e))`; rule_decks/bjt_derivations.lvs 125. -/
def «pnp_mpa_c» : Expr := .some "pnp_c.interacting(pnp_c.extents.interacting(pnp_mpa_e))" «pnp_c»

/-- `antenna_d_exc = pwell_block.join(salblock_drw)`; rule_decks/diode_derivations.lvs 32. -/
def «antenna_d_exc» : Expr := .or «pwell_block_2» «salblock_drw_2»

/-- `antenna_d_mk = recog_diode.not(antenna_d_exc)`; rule_decks/diode_derivations.lvs 35. -/
def «antenna_d_mk» : Expr := .diff «recog_diode_2» «antenna_d_exc»

/-- `dantenna_n = activ.and(antenna_d_mk).not(psd_drw).not(nwell_drw)`; rule_decks/diode_derivations.lvs 38. -/
def «dantenna_n» : Expr := .diff (.diff (.and «activ» «antenna_d_mk») «psd_drw_2») «nwell_drw_2»

/-- `dantenna_p = pwell.and(antenna_d_mk).covering(dantenna_n)`; rule_decks/diode_derivations.lvs 39. -/
def «dantenna_p» : Expr := .some "pwell.and(antenna_d_mk).covering(dantenna_n)" (.and «pwell» «antenna_d_mk»)

/-- `dpantenna_p = pactiv.and(antenna_d_mk)`; rule_decks/diode_derivations.lvs 42. -/
def «dpantenna_p» : Expr := .and «pactiv» «antenna_d_mk»

/-- `dpantenna_n = nwell_drw.covering(dpantenna_p)`; rule_decks/diode_derivations.lvs 43. -/
def «dpantenna_n» : Expr := .some "nwell_drw.covering(dpantenna_p)" «nwell_drw_2»

/-- `schottcky_p_ = cont_drw.and(activ).and(metal1_con)`; rule_decks/diode_derivations.lvs 51. -/
def «schottcky_p_» : Expr := .and (.and «cont_drw_2» «activ») «metal1_con»

/-- `schottcky_p = schottcky_p_.with_bbox_min(0.3.um).with_bbox_max(1.0.um)`; rule_decks/diode_derivations.lvs 55. -/
def «schottcky_p» : Expr := .some "schottcky_p_.with_bbox_min(0.3.um).with_bbox_max(1.0.um)" (.some "schottcky_p_.with_bbox_min(0.3.um)" «schottcky_p_»)

/-- `schottcky_p_1x1 = schottcky_p.middle(as_boxes).sized(0.499.um)`; rule_decks/diode_derivations.lvs 57. -/
def «schottcky_p_1x1» : Expr := .made "schottcky_p.middle(as_boxes).sized(0.499.um)" (.made "schottcky_p.middle(as_boxes)" «schottcky_p»)

/-- `schottcky_n = nsd_block.and(activ).covering(schottcky_p)`; rule_decks/diode_derivations.lvs 59. -/
def «schottcky_n» : Expr := .some "nsd_block.and(activ).covering(schottcky_p)" (.and «nsd_block_2» «activ»)

/-- `schottcky_n_port = activ.interacting(nwell_iso).interacting(schottcky_n).not(schottcky_n.sized(-1.nm))`; rule_decks/diode_derivations.lvs 62. -/
def «schottcky_n_port» : Expr := .diff (.some "activ.interacting(nwell_iso).interacting(schottcky_n)" (.some "activ.interacting(nwell_iso)" «activ»)) (.made "schottcky_n.sized(-1.nm)" «schottcky_n»)

/-- `schottcky_n_con = cont_drw.and(schottcky_n_port).not_interacting(schottcky_p)`; rule_decks/diode_derivations.lvs 63. -/
def «schottcky_n_con» : Expr := .some "cont_drw.and(schottcky_n_port).not_interacting(schottcky_p)" (.and «cont_drw_2» «schottcky_n_port»)

/-- `polyres_exclude = activ.join(pwell_block).join(nsd_block)`; rule_decks/res_derivations.lvs 26. -/
def «polyres_exclude» : Expr := .or (.or «activ» «pwell_block_2») «nsd_block_2»

/-- `polyres_mk = polyres_drw.and(extblock_drw).interacting(gatpoly).not(polyres_exclude)`; rule_decks/res_derivations.lvs 37. -/
def «polyres_mk» : Expr := .diff (.some "polyres_drw.and(extblock_drw).interacting(gatpoly)" (.and «polyres_drw_2» «extblock_drw_2»)) «polyres_exclude»

/-- `rhigh_res = polyres_mk.and(psd_drw).and(nsd_drw).and(salblock_drw)`; rule_decks/res_derivations.lvs 40. -/
def «rhigh_res» : Expr := .and (.and (.and «polyres_mk» «psd_drw_2») «nsd_drw_2») «salblock_drw_2»

/-- `rhigh_ports = gatpoly.interacting(rhigh_res).not(rhigh_res)`; rule_decks/res_derivations.lvs 41. -/
def «rhigh_ports» : Expr := .diff (.some "gatpoly.interacting(rhigh_res)" «gatpoly») «rhigh_res»

/-- `rppd_res = polyres_mk.and(psd_drw).and(salblock_drw).not(nsd_block).not(nsd_drw)`; rule_decks/res_derivations.lvs 44. -/
def «rppd_res» : Expr := .diff (.diff (.and (.and «polyres_mk» «psd_drw_2») «salblock_drw_2») «nsd_block_2») «nsd_drw_2»

/-- `rppd_ports = gatpoly.interacting(rppd_res).not(rppd_res)`; rule_decks/res_derivations.lvs 45. -/
def «rppd_ports» : Expr := .diff (.some "gatpoly.interacting(rppd_res)" «gatpoly») «rppd_res»

/-- `rsil_exc = psd_drw.join(salblock_drw).join(nsd_drw).join(nsd_block)`; rule_decks/res_derivations.lvs 48. -/
def «rsil_exc» : Expr := .or (.or (.or «psd_drw_2» «salblock_drw_2») «nsd_drw_2») «nsd_block_2»

/-- `rsil_res = polyres_mk.and(res_drw).not(rsil_exc)`; rule_decks/res_derivations.lvs 49. -/
def «rsil_res» : Expr := .diff (.and «polyres_mk» «res_drw_2») «rsil_exc»

/-- `rsil_ports = gatpoly.interacting(rsil_res).not(rsil_res)`; rule_decks/res_derivations.lvs 50. -/
def «rsil_ports» : Expr := .diff (.some "gatpoly.interacting(rsil_res)" «gatpoly») «rsil_res»

/-- `rfmimcap_exc = ind_drw.join(ind_pin)`; rule_decks/cap_derivations.lvs 26. -/
def «rfmimcap_exc» : Expr := .or «ind_drw_2» «ind_pin_2»

/-- `mimcap_exclude = pwell_block.join(rfmimcap_exc)`; rule_decks/cap_derivations.lvs 29. -/
def «mimcap_exclude» : Expr := .or «pwell_block_2» «rfmimcap_exc»

/-- `mim_top = mim_drw.overlapping(topmetal1_con).and(metal5_con)`; rule_decks/cap_derivations.lvs 31. -/
def «mim_top» : Expr := .and (.some "mim_drw.overlapping(topmetal1_con)" «mim_drw_2») «metal5_con»

/-- `mim_btm = metal5_con.and(mim_drw).sized(0.6.um)`; rule_decks/cap_derivations.lvs 32. -/
def «mim_btm» : Expr := .made "metal5_con.and(mim_drw).sized(0.6.um)" (.and «metal5_con» «mim_drw_2»)

/-- `mim_via = vmim_drw.join(topvia1_drw).and(mim_drw)`; rule_decks/cap_derivations.lvs 33. -/
def «mim_via» : Expr := .and (.or «vmim_drw_2» «topvia1_drw_2») «mim_drw_2»

/-- `topvia1_n_cap = topvia1_drw.not(mim_via)`; rule_decks/cap_derivations.lvs 34. -/
def «topvia1_n_cap» : Expr := .diff «topvia1_drw_2» «mim_via»

/-- `cmim_top = mim_top.not(mimcap_exclude)`; rule_decks/cap_derivations.lvs 37. -/
def «cmim_top» : Expr := .diff «mim_top» «mimcap_exclude»

/-- `cmim_btm = mim_btm.covering(cmim_top)`; rule_decks/cap_derivations.lvs 38. -/
def «cmim_btm» : Expr := .some "mim_btm.covering(cmim_top)" «mim_btm»

/-- `rfmim_area = pwell_block.interacting(mim_drw)`; rule_decks/cap_derivations.lvs 42. -/
def «rfmim_area» : Expr := .some "pwell_block.interacting(mim_drw)" «pwell_block_2»

/-- `rfmim_top = mim_top.and(rfmim_area).not(rfmimcap_exc)`; rule_decks/cap_derivations.lvs 43. -/
def «rfmim_top» : Expr := .diff (.and «mim_top» «rfmim_area») «rfmimcap_exc»

/-- `rfmim_btm = mim_btm.and(rfmim_area).covering(rfmim_top)`; rule_decks/cap_derivations.lvs 44. -/
def «rfmim_btm» : Expr := .some "mim_btm.and(rfmim_area).covering(rfmim_top)" (.and «mim_btm» «rfmim_area»)

/-- `rfmim_sub = ptap.extents.interacting(rfmim_area)`; rule_decks/cap_derivations.lvs 46. -/
def «rfmim_sub» : Expr := .some "ptap.extents.interacting(rfmim_area)" (.made "ptap.extents" «ptap»)

/-- `cap_exc = nsd_drw.join(trans_drw).join(emwind_drw)`; rule_decks/cap_derivations.lvs 50. -/
def «cap_exc» : Expr := .or (.or «nsd_drw_2» «trans_drw_2») «emwind_drw_2»

/-- `varicap_exc = pwell.join(pwell_block).join(nwell_holes).join(cap_exc)`; rule_decks/cap_derivations.lvs 56. -/
def «varicap_exc» : Expr := .or (.or (.or «pwell» «pwell_block_2») «nwell_holes») «cap_exc»

/-- `varicap_core = ngate_hv_base.and(nwell_iso).not(varicap_exc)`; rule_decks/cap_derivations.lvs 58. -/
def «varicap_core» : Expr := .diff (.and «ngate_hv_base» «nwell_iso») «varicap_exc»

/-- `varicap_diff_port = nactiv.interacting(varicap_core).not(varicap_core)`; rule_decks/cap_derivations.lvs 59. -/
def «varicap_diff_port» : Expr := .diff (.some "nactiv.interacting(varicap_core)" «nactiv») «varicap_core»

/-- `varicap_poly_port = gatpoly.interacting(varicap_core)`; rule_decks/cap_derivations.lvs 61. -/
def «varicap_poly_port» : Expr := .some "gatpoly.interacting(varicap_core)" «gatpoly»

/-- `varicap_ports = varicap_poly_port.join(varicap_diff_port)`; rule_decks/cap_derivations.lvs 62. -/
def «varicap_ports» : Expr := .or «varicap_poly_port» «varicap_diff_port»

/-- `varicap_sub = ptap.and(thickgateox_drw)`; rule_decks/cap_derivations.lvs 63. -/
def «varicap_sub» : Expr := .and «ptap» «thickgateox_drw_2»

/-- `esd_exc_d = gatpoly.join(thickgateox_drw).join(salblock_drw)`; rule_decks/esd_derivations.lvs 32. -/
def «esd_exc_d» : Expr := .or (.or «gatpoly» «thickgateox_drw_2») «salblock_drw_2»

/-- `idiodevdd_exc = esd_exc_d.join(nwell_holes)`; rule_decks/esd_derivations.lvs 35. -/
def «idiodevdd_exc» : Expr := .or «esd_exc_d» «nwell_holes»

/-- `diodevdd_exc = idiodevdd_exc.join(nbulay_drw).join(pwell_block)`; rule_decks/esd_derivations.lvs 36. -/
def «diodevdd_exc» : Expr := .or (.or «idiodevdd_exc» «nbulay_drw_2») «pwell_block_2»

/-- `idiodevss_exc = esd_exc_d.join(nwell_drw.not_interacting(nwell_holes))`; rule_decks/esd_derivations.lvs 38. -/
def «idiodevss_exc» : Expr := .or «esd_exc_d» (.some "nwell_drw.not_interacting(nwell_holes)" «nwell_drw_2»)

/-- `diodevss_exc = idiodevss_exc.join(nbulay_drw)`; rule_decks/esd_derivations.lvs 40. -/
def «diodevss_exc» : Expr := .or «idiodevss_exc» «nbulay_drw_2»

/-- `nw_diode = nwell_drw.not_interacting(pwell_block)`; rule_decks/esd_derivations.lvs 42. -/
def «nw_diode» : Expr := .some "nwell_drw.not_interacting(pwell_block)" «nwell_drw_2»

/-- `nw_idiode = nwell_iso.interacting(pwell_block)`; rule_decks/esd_derivations.lvs 43. -/
def «nw_idiode» : Expr := .some "nwell_iso.interacting(pwell_block)" «nwell_iso»

/-- `diodevdd_2kv_e = pactiv.and(nw_diode).and(recog_esd).not(diodevdd_exc)`; rule_decks/esd_derivations.lvs 50. -/
def «diodevdd_2kv_e» : Expr := .diff (.and (.and «pactiv» «nw_diode») «recog_esd_2») «diodevdd_exc»

/-- `diodevdd_2kv_e_1x1 = diodevdd_2kv_e.middle.sized(0.499.um)`; rule_decks/esd_derivations.lvs 51. -/
def «diodevdd_2kv_e_1x1» : Expr := .made "diodevdd_2kv_e.middle.sized(0.499.um)" (.made "diodevdd_2kv_e.middle" «diodevdd_2kv_e»)

/-- `diodevdd_2kv_b_ = nactiv.and(nw_diode).and(recog_esd).not(diodevdd_exc)`; rule_decks/esd_derivations.lvs 52. -/
def «diodevdd_2kv_b_» : Expr := .diff (.and (.and «nactiv» «nw_diode») «recog_esd_2») «diodevdd_exc»

/-- `diodevdd_2kv_b = diodevdd_2kv_b_.interacting(diodevdd_2kv_b_.extents.interacting(diodevdd_2kv_e, 1, 1))`; rule_decks/esd_derivations.lvs 53. -/
def «diodevdd_2kv_b» : Expr := .some "diodevdd_2kv_b_.interacting(diodevdd_2kv_b_.extents.interacting(diodevdd_2kv_e,1,1))" «diodevdd_2kv_b_»

/-- `diodevdd_2kv_tb = cont_drw.and(diodevdd_2kv_b).not_interacting(diodevdd_2kv_e)`; rule_decks/esd_derivations.lvs 54. -/
def «diodevdd_2kv_tb» : Expr := .some "cont_drw.and(diodevdd_2kv_b).not_interacting(diodevdd_2kv_e)" (.and «cont_drw_2» «diodevdd_2kv_b»)

/-- `diodevdd_2kv_c_ = pactiv.and(pwell).and(recog_esd).not(diodevdd_exc)`; rule_decks/esd_derivations.lvs 55. -/
def «diodevdd_2kv_c_» : Expr := .diff (.and (.and «pactiv» «pwell») «recog_esd_2») «diodevdd_exc»

/-- `diodevdd_2kv_c = diodevdd_2kv_c_.interacting(diodevdd_2kv_c_.extents.interacting(diodevdd_2kv_b, 1, 1))`; rule_decks/esd_derivations.lvs 56. -/
def «diodevdd_2kv_c» : Expr := .some "diodevdd_2kv_c_.interacting(diodevdd_2kv_c_.extents.interacting(diodevdd_2kv_b,1,1))" «diodevdd_2kv_c_»

/-- `diodevdd_4kv_b = diodevdd_2kv_b_.interacting(diodevdd_2kv_b_.extents.interacting(diodevdd_2kv_e, 2, 2))`; rule_decks/esd_derivations.lvs 59. -/
def «diodevdd_4kv_b» : Expr := .some "diodevdd_2kv_b_.interacting(diodevdd_2kv_b_.extents.interacting(diodevdd_2kv_e,2,2))" «diodevdd_2kv_b_»

/-- `diodevdd_4kv_c = diodevdd_2kv_c_.interacting(diodevdd_2kv_c_.extents.interacting(diodevdd_4kv_b, 1, 1))`; rule_decks/esd_derivations.lvs 60. -/
def «diodevdd_4kv_c» : Expr := .some "diodevdd_2kv_c_.interacting(diodevdd_2kv_c_.extents.interacting(diodevdd_4kv_b,1,1))" «diodevdd_2kv_c_»

/-- `diodevdd_4kv_e = diodevdd_4kv_b.extents.sized(-0.15.um)`; rule_decks/esd_derivations.lvs 61. -/
def «diodevdd_4kv_e» : Expr := .made "diodevdd_4kv_b.extents.sized(-0.15.um)" (.made "diodevdd_4kv_b.extents" «diodevdd_4kv_b»)

/-- `diodevdd_4kv_e_1x1 = diodevdd_4kv_e.middle.sized(0.499.um)`; rule_decks/esd_derivations.lvs 62. -/
def «diodevdd_4kv_e_1x1» : Expr := .made "diodevdd_4kv_e.middle.sized(0.499.um)" (.made "diodevdd_4kv_e.middle" «diodevdd_4kv_e»)

/-- `diodevdd_4kv_te = cont_drw.and(diodevdd_2kv_e).not_interacting(diodevdd_4kv_b)`; rule_decks/esd_derivations.lvs 63. -/
def «diodevdd_4kv_te» : Expr := .some "cont_drw.and(diodevdd_2kv_e).not_interacting(diodevdd_4kv_b)" (.and «cont_drw_2» «diodevdd_2kv_e»)

/-- `diodevdd_4kv_tb = cont_drw.and(diodevdd_4kv_b).not_interacting(diodevdd_2kv_e)`; rule_decks/esd_derivations.lvs 64. -/
def «diodevdd_4kv_tb» : Expr := .some "cont_drw.and(diodevdd_4kv_b).not_interacting(diodevdd_2kv_e)" (.and «cont_drw_2» «diodevdd_4kv_b»)

/-- `diodevss_2kv_e = nactiv.and(pwell).and(recog_esd).not(diodevss_exc)`; rule_decks/esd_derivations.lvs 67. -/
def «diodevss_2kv_e» : Expr := .diff (.and (.and «nactiv» «pwell») «recog_esd_2») «diodevss_exc»

/-- `diodevss_2kv_e_1x1 = diodevss_2kv_e.middle.sized(0.499.um)`; rule_decks/esd_derivations.lvs 68. -/
def «diodevss_2kv_e_1x1» : Expr := .made "diodevss_2kv_e.middle.sized(0.499.um)" (.made "diodevss_2kv_e.middle" «diodevss_2kv_e»)

/-- `diodevss_2kv_b_ = pactiv.and(pwell).and(recog_esd).not(diodevss_exc)`; rule_decks/esd_derivations.lvs 69. -/
def «diodevss_2kv_b_» : Expr := .diff (.and (.and «pactiv» «pwell») «recog_esd_2») «diodevss_exc»

/-- `diodevss_2kv_b = diodevss_2kv_b_.interacting(diodevss_2kv_b_.extents.interacting(diodevss_2kv_e, 1, 1))`; rule_decks/esd_derivations.lvs 70. -/
def «diodevss_2kv_b» : Expr := .some "diodevss_2kv_b_.interacting(diodevss_2kv_b_.extents.interacting(diodevss_2kv_e,1,1))" «diodevss_2kv_b_»

/-- `diodevss_2kv_tb = cont_drw.and(diodevss_2kv_b).not_interacting(diodevss_2kv_e)`; rule_decks/esd_derivations.lvs 71. -/
def «diodevss_2kv_tb» : Expr := .some "cont_drw.and(diodevss_2kv_b).not_interacting(diodevss_2kv_e)" (.and «cont_drw_2» «diodevss_2kv_b»)

/-- `diodevss_2kv_c_ = nactiv.and(nw_diode).and(recog_esd).not(diodevss_exc)`; rule_decks/esd_derivations.lvs 72. -/
def «diodevss_2kv_c_» : Expr := .diff (.and (.and «nactiv» «nw_diode») «recog_esd_2») «diodevss_exc»

/-- `diodevss_2kv_c = diodevss_2kv_c_.interacting(diodevss_2kv_c_.extents.interacting(diodevss_2kv_b, 1, 1))`; rule_decks/esd_derivations.lvs 73. -/
def «diodevss_2kv_c» : Expr := .some "diodevss_2kv_c_.interacting(diodevss_2kv_c_.extents.interacting(diodevss_2kv_b,1,1))" «diodevss_2kv_c_»

/-- `diodevss_4kv_b = diodevss_2kv_b_.interacting(diodevss_2kv_b_.extents.interacting(diodevss_2kv_e, 2, 2))`; rule_decks/esd_derivations.lvs 76. -/
def «diodevss_4kv_b» : Expr := .some "diodevss_2kv_b_.interacting(diodevss_2kv_b_.extents.interacting(diodevss_2kv_e,2,2))" «diodevss_2kv_b_»

/-- `diodevss_4kv_c = diodevss_2kv_c_.interacting(diodevss_2kv_c_.extents.interacting(diodevss_4kv_b, 1, 1))`; rule_decks/esd_derivations.lvs 77. -/
def «diodevss_4kv_c» : Expr := .some "diodevss_2kv_c_.interacting(diodevss_2kv_c_.extents.interacting(diodevss_4kv_b,1,1))" «diodevss_2kv_c_»

/-- `diodevss_4kv_e = diodevss_4kv_b.extents.sized(-0.15.um)`; rule_decks/esd_derivations.lvs 78. -/
def «diodevss_4kv_e» : Expr := .made "diodevss_4kv_b.extents.sized(-0.15.um)" (.made "diodevss_4kv_b.extents" «diodevss_4kv_b»)

/-- `diodevss_4kv_e_1x1 = diodevss_4kv_e.middle.sized(0.499.um)`; rule_decks/esd_derivations.lvs 79. -/
def «diodevss_4kv_e_1x1» : Expr := .made "diodevss_4kv_e.middle.sized(0.499.um)" (.made "diodevss_4kv_e.middle" «diodevss_4kv_e»)

/-- `diodevss_4kv_te = cont_drw.and(diodevss_2kv_e).not_interacting(diodevss_4kv_b)`; rule_decks/esd_derivations.lvs 80. -/
def «diodevss_4kv_te» : Expr := .some "cont_drw.and(diodevss_2kv_e).not_interacting(diodevss_4kv_b)" (.and «cont_drw_2» «diodevss_2kv_e»)

/-- `diodevss_4kv_tb = cont_drw.and(diodevss_4kv_b).not_interacting(diodevss_2kv_e)`; rule_decks/esd_derivations.lvs 81. -/
def «diodevss_4kv_tb» : Expr := .some "cont_drw.and(diodevss_4kv_b).not_interacting(diodevss_2kv_e)" (.and «cont_drw_2» «diodevss_4kv_b»)

/-- `idiodevdd_2kv_e = pactiv.and(nw_idiode).and(recog_esd).not(idiodevdd_exc)`; rule_decks/esd_derivations.lvs 88. -/
def «idiodevdd_2kv_e» : Expr := .diff (.and (.and «pactiv» «nw_idiode») «recog_esd_2») «idiodevdd_exc»

/-- `idiodevdd_2kv_e_1x1 = idiodevdd_2kv_e.middle.sized(0.499.um)`; rule_decks/esd_derivations.lvs 89. -/
def «idiodevdd_2kv_e_1x1» : Expr := .made "idiodevdd_2kv_e.middle.sized(0.499.um)" (.made "idiodevdd_2kv_e.middle" «idiodevdd_2kv_e»)

/-- `idiodevdd_2kv_b_ = nactiv.and(nw_idiode).and(recog_esd).not(idiodevdd_exc)`; rule_decks/esd_derivations.lvs 90. -/
def «idiodevdd_2kv_b_» : Expr := .diff (.and (.and «nactiv» «nw_idiode») «recog_esd_2») «idiodevdd_exc»

/-- `idiodevdd_2kv_b = idiodevdd_2kv_b_.interacting(idiodevdd_2kv_b_.extents.interacting(idiodevdd_2kv_e, 1, 1))`; rule_decks/esd_derivations.lvs 91. -/
def «idiodevdd_2kv_b» : Expr := .some "idiodevdd_2kv_b_.interacting(idiodevdd_2kv_b_.extents.interacting(idiodevdd_2kv_e,1,1))" «idiodevdd_2kv_b_»

/-- `idiodevdd_2kv_tb = cont_drw.and(idiodevdd_2kv_b).not_interacting(idiodevdd_2kv_e)`; rule_decks/esd_derivations.lvs 92. -/
def «idiodevdd_2kv_tb» : Expr := .some "cont_drw.and(idiodevdd_2kv_b).not_interacting(idiodevdd_2kv_e)" (.and «cont_drw_2» «idiodevdd_2kv_b»)

/-- `idiodevdd_2kv_c_ = pactiv.and(pwell).and(recog_esd).not(idiodevdd_exc)`; rule_decks/esd_derivations.lvs 93. -/
def «idiodevdd_2kv_c_» : Expr := .diff (.and (.and «pactiv» «pwell») «recog_esd_2») «idiodevdd_exc»

/-- `idiodevdd_2kv_c = idiodevdd_2kv_c_.interacting(idiodevdd_2kv_c_.extents.interacting(idiodevdd_2kv_b, 1, 1))`; rule_decks/esd_derivations.lvs 94. -/
def «idiodevdd_2kv_c» : Expr := .some "idiodevdd_2kv_c_.interacting(idiodevdd_2kv_c_.extents.interacting(idiodevdd_2kv_b,1,1))" «idiodevdd_2kv_c_»

/-- `idiodevdd_4kv_b = idiodevdd_2kv_b_.interacting(idiodevdd_2kv_b_.extents.interacting(idiodevdd_2kv_e, 2, 2))`; rule_decks/esd_derivations.lvs 97. -/
def «idiodevdd_4kv_b» : Expr := .some "idiodevdd_2kv_b_.interacting(idiodevdd_2kv_b_.extents.interacting(idiodevdd_2kv_e,2,2))" «idiodevdd_2kv_b_»

/-- `idiodevdd_4kv_c = idiodevdd_2kv_c_.interacting(idiodevdd_2kv_c_.extents.interacting(idiodevdd_4kv_b, 1, 1))`; rule_decks/esd_derivations.lvs 98. -/
def «idiodevdd_4kv_c» : Expr := .some "idiodevdd_2kv_c_.interacting(idiodevdd_2kv_c_.extents.interacting(idiodevdd_4kv_b,1,1))" «idiodevdd_2kv_c_»

/-- `idiodevdd_4kv_e = idiodevdd_4kv_b.extents.sized(-0.15.um)`; rule_decks/esd_derivations.lvs 99. -/
def «idiodevdd_4kv_e» : Expr := .made "idiodevdd_4kv_b.extents.sized(-0.15.um)" (.made "idiodevdd_4kv_b.extents" «idiodevdd_4kv_b»)

/-- `idiodevdd_4kv_e_1x1 = idiodevdd_4kv_e.middle.sized(0.499.um)`; rule_decks/esd_derivations.lvs 100. -/
def «idiodevdd_4kv_e_1x1» : Expr := .made "idiodevdd_4kv_e.middle.sized(0.499.um)" (.made "idiodevdd_4kv_e.middle" «idiodevdd_4kv_e»)

/-- `idiodevdd_4kv_te = cont_drw.and(idiodevdd_2kv_e).not_interacting(idiodevdd_4kv_b)`; rule_decks/esd_derivations.lvs 101. -/
def «idiodevdd_4kv_te» : Expr := .some "cont_drw.and(idiodevdd_2kv_e).not_interacting(idiodevdd_4kv_b)" (.and «cont_drw_2» «idiodevdd_2kv_e»)

/-- `idiodevdd_4kv_tb = cont_drw.and(idiodevdd_4kv_b).not_interacting(idiodevdd_2kv_e)`; rule_decks/esd_derivations.lvs 102. -/
def «idiodevdd_4kv_tb» : Expr := .some "cont_drw.and(idiodevdd_4kv_b).not_interacting(idiodevdd_2kv_e)" (.and «cont_drw_2» «idiodevdd_4kv_b»)

/-- `idiodevss_2kv_e = nactiv.and(pwell).and(nbulay_drw).and(recog_esd).not(idiodevss_exc)`; rule_decks/esd_derivations.lvs 105. -/
def «idiodevss_2kv_e» : Expr := .diff (.and (.and (.and «nactiv» «pwell») «nbulay_drw_2») «recog_esd_2») «idiodevss_exc»

/-- `idiodevss_2kv_e_1x1 = idiodevss_2kv_e.middle.sized(0.499.um)`; rule_decks/esd_derivations.lvs 106. -/
def «idiodevss_2kv_e_1x1» : Expr := .made "idiodevss_2kv_e.middle.sized(0.499.um)" (.made "idiodevss_2kv_e.middle" «idiodevss_2kv_e»)

/-- `idiodevss_2kv_b_ = pactiv.and(pwell).and(nbulay_drw).and(recog_esd).not(idiodevss_exc)`; rule_decks/esd_derivations.lvs 107. -/
def «idiodevss_2kv_b_» : Expr := .diff (.and (.and (.and «pactiv» «pwell») «nbulay_drw_2») «recog_esd_2») «idiodevss_exc»

/-- `idiodevss_2kv_b = idiodevss_2kv_b_.interacting(idiodevss_2kv_b_.extents.interacting(idiodevss_2kv_e, 1, 1))`; rule_decks/esd_derivations.lvs 108. -/
def «idiodevss_2kv_b» : Expr := .some "idiodevss_2kv_b_.interacting(idiodevss_2kv_b_.extents.interacting(idiodevss_2kv_e,1,1))" «idiodevss_2kv_b_»

/-- `idiodevss_2kv_tb = cont_drw.and(idiodevss_2kv_b).not_interacting(idiodevss_2kv_e)`; rule_decks/esd_derivations.lvs 109. -/
def «idiodevss_2kv_tb» : Expr := .some "cont_drw.and(idiodevss_2kv_b).not_interacting(idiodevss_2kv_e)" (.and «cont_drw_2» «idiodevss_2kv_b»)

/-- `idiodevss_2kv_c_ = nactiv.and(nwell_iso).and(recog_esd).not(idiodevss_exc)`; rule_decks/esd_derivations.lvs 110. -/
def «idiodevss_2kv_c_» : Expr := .diff (.and (.and «nactiv» «nwell_iso») «recog_esd_2») «idiodevss_exc»

/-- `idiodevss_2kv_c = idiodevss_2kv_c_.interacting(idiodevss_2kv_c_.extents.interacting(idiodevss_2kv_b, 1, 1))`; rule_decks/esd_derivations.lvs 111. -/
def «idiodevss_2kv_c» : Expr := .some "idiodevss_2kv_c_.interacting(idiodevss_2kv_c_.extents.interacting(idiodevss_2kv_b,1,1))" «idiodevss_2kv_c_»

/-- `idiodevss_4kv_b = idiodevss_2kv_b_.interacting(idiodevss_2kv_b_.extents.interacting(idiodevss_2kv_e, 2, 2))`; rule_decks/esd_derivations.lvs 114. -/
def «idiodevss_4kv_b» : Expr := .some "idiodevss_2kv_b_.interacting(idiodevss_2kv_b_.extents.interacting(idiodevss_2kv_e,2,2))" «idiodevss_2kv_b_»

/-- `idiodevss_4kv_c = idiodevss_2kv_c_.interacting(idiodevss_2kv_c_.extents.interacting(idiodevss_4kv_b, 1, 1))`; rule_decks/esd_derivations.lvs 115. -/
def «idiodevss_4kv_c» : Expr := .some "idiodevss_2kv_c_.interacting(idiodevss_2kv_c_.extents.interacting(idiodevss_4kv_b,1,1))" «idiodevss_2kv_c_»

/-- `idiodevss_4kv_e = idiodevss_4kv_b.extents.sized(-0.15.um)`; rule_decks/esd_derivations.lvs 116. -/
def «idiodevss_4kv_e» : Expr := .made "idiodevss_4kv_b.extents.sized(-0.15.um)" (.made "idiodevss_4kv_b.extents" «idiodevss_4kv_b»)

/-- `idiodevss_4kv_e_1x1 = idiodevss_4kv_e.middle.sized(0.499.um)`; rule_decks/esd_derivations.lvs 117. -/
def «idiodevss_4kv_e_1x1» : Expr := .made "idiodevss_4kv_e.middle.sized(0.499.um)" (.made "idiodevss_4kv_e.middle" «idiodevss_4kv_e»)

/-- `idiodevss_4kv_te = cont_drw.and(idiodevss_2kv_e).not_interacting(idiodevss_4kv_b)`; rule_decks/esd_derivations.lvs 118. -/
def «idiodevss_4kv_te» : Expr := .some "cont_drw.and(idiodevss_2kv_e).not_interacting(idiodevss_4kv_b)" (.and «cont_drw_2» «idiodevss_2kv_e»)

/-- `idiodevss_4kv_tb = cont_drw.and(idiodevss_4kv_b).not_interacting(idiodevss_2kv_e)`; rule_decks/esd_derivations.lvs 119. -/
def «idiodevss_4kv_tb» : Expr := .some "cont_drw.and(idiodevss_4kv_b).not_interacting(idiodevss_2kv_e)" (.and «cont_drw_2» «idiodevss_4kv_b»)

/-- `nmoscl_2_n_ = recog_esd.interacting(text_drw.texts(nmoscl_2_patt))`; rule_decks/esd_derivations.lvs 131. -/
def «nmoscl_2_n_» : Expr := .some "recog_esd.interacting(text_drw.texts(nmoscl_2_patt))" «recog_esd_2»

/-- `nmoscl_2_n = nmoscl_2_n_.interacting(gate_moscl, 12)`; rule_decks/esd_derivations.lvs 132. -/
def «nmoscl_2_n» : Expr := .some "nmoscl_2_n_.interacting(gate_moscl,12)" «nmoscl_2_n_»

/-- `nmoscl_2_n_port = nwell_drw.and(nmoscl_2_n)`; rule_decks/esd_derivations.lvs 133. -/
def «nmoscl_2_n_port» : Expr := .and «nwell_drw_2» «nmoscl_2_n»

/-- `nmoscl_2_p_ = ptap.and(nbulay_drw).inside(nmoscl_2_n_)`; rule_decks/esd_derivations.lvs 134. -/
def «nmoscl_2_p_» : Expr := .some "ptap.and(nbulay_drw).inside(nmoscl_2_n_)" (.and «ptap» «nbulay_drw_2»)

/-- `nmoscl_2_p =nmoscl_2_p_.middle(as_boxes).sized(0.499.um)`; rule_decks/esd_derivations.lvs 136. -/
def «nmoscl_2_p» : Expr := .made "nmoscl_2_p_.middle(as_boxes).sized(0.499.um)" (.made "nmoscl_2_p_.middle(as_boxes)" «nmoscl_2_p_»)

/-- `nmoscl_4_n_ = recog_esd.interacting(text_drw.texts(nmoscl_4_patt))`; rule_decks/esd_derivations.lvs 142. -/
def «nmoscl_4_n_» : Expr := .some "recog_esd.interacting(text_drw.texts(nmoscl_4_patt))" «recog_esd_2»

/-- `nmoscl_4_n = nmoscl_4_n_.interacting(gate_moscl, 24)`; rule_decks/esd_derivations.lvs 143. -/
def «nmoscl_4_n» : Expr := .some "nmoscl_4_n_.interacting(gate_moscl,24)" «nmoscl_4_n_»

/-- `nmoscl_4_n_port = nwell_drw.and(nmoscl_4_n)`; rule_decks/esd_derivations.lvs 144. -/
def «nmoscl_4_n_port» : Expr := .and «nwell_drw_2» «nmoscl_4_n»

/-- `nmoscl_4_p_ = ptap.and(nbulay_drw).inside(nmoscl_4_n_)`; rule_decks/esd_derivations.lvs 145. -/
def «nmoscl_4_p_» : Expr := .some "ptap.and(nbulay_drw).inside(nmoscl_4_n_)" (.and «ptap» «nbulay_drw_2»)

/-- `nmoscl_4_p =nmoscl_4_p_.middle(as_boxes).sized(0.499.um)`; rule_decks/esd_derivations.lvs 147. -/
def «nmoscl_4_p» : Expr := .made "nmoscl_4_p_.middle(as_boxes).sized(0.499.um)" (.made "nmoscl_4_p_.middle(as_boxes)" «nmoscl_4_p_»)

/-- `ind_exc = gatpoly.join(nsd_drw).join(nbulay_drw)`; rule_decks/ind_derivations.lvs 26. -/
def «ind_exc» : Expr := .or (.or «gatpoly» «nsd_drw_2») «nbulay_drw_2»

/-- `ind_core_ = topmetal2.join(topmetal1).and(ind_drw).merged.not(ind_exc)`; rule_decks/ind_derivations.lvs 40. -/
def «ind_core_» : Expr := .diff (.and (.or «topmetal2» «topmetal1») «ind_drw_2») «ind_exc»

/-- `ind_ports_ = ind_pin.and(ind_core_).interacting(ind_edges)`; rule_decks/ind_derivations.lvs 41. -/
def «ind_ports_» : Expr := .some "ind_pin.and(ind_core_).interacting(ind_edges)" (.and «ind_pin_2» «ind_core_»)

/-- `ind_port_la = ind_ports_.interacting(ind_text.texts(la_patt))`; rule_decks/ind_derivations.lvs 42. -/
def «ind_port_la» : Expr := .some "ind_ports_.interacting(ind_text.texts(la_patt))" «ind_ports_»

/-- `ind_la_tm1 = ind_port_la.and(topmetal1)`; rule_decks/ind_derivations.lvs 43. -/
def «ind_la_tm1» : Expr := .and «ind_port_la» «topmetal1»

/-- `ind_port_lb = ind_ports_.interacting(ind_text.texts(lb_patt))`; rule_decks/ind_derivations.lvs 44. -/
def «ind_port_lb» : Expr := .some "ind_ports_.interacting(ind_text.texts(lb_patt))" «ind_ports_»

/-- `ind_lb_tm1 = ind_port_lb.and(topmetal1)`; rule_decks/ind_derivations.lvs 45. -/
def «ind_lb_tm1» : Expr := .and «ind_port_lb» «topmetal1»

/-- `ind_port_lc = ind_ports_.interacting(ind_text.texts(lc_patt))`; rule_decks/ind_derivations.lvs 46. -/
def «ind_port_lc» : Expr := .some "ind_ports_.interacting(ind_text.texts(lc_patt))" «ind_ports_»

/-- `ind_lc_tm2 = ind_port_lc.and(topmetal2)`; rule_decks/ind_derivations.lvs 47. -/
def «ind_lc_tm2» : Expr := .and «ind_port_lc» «topmetal2»

/-- `ind2_ports = ind_port_la.join(ind_port_lb)`; rule_decks/ind_derivations.lvs 50. -/
def «ind2_ports» : Expr := .or «ind_port_la» «ind_port_lb»

/-- `ind2_sub1 = pwell.and(ind_drw).interacting(ind2_core)`; rule_decks/ind_derivations.lvs 54. -/
def «ind2_sub1» : Expr := .some "pwell.and(ind_drw).interacting(ind2_core)" (.and «pwell» «ind_drw_2»)

/-- `ind2_sub2 = pwell_block.and(ind_drw).interacting(ind2_core).sized(1.nm)`; rule_decks/ind_derivations.lvs 55. -/
def «ind2_sub2» : Expr := .made "pwell_block.and(ind_drw).interacting(ind2_core).sized(1.nm)" (.some "pwell_block.and(ind_drw).interacting(ind2_core)" (.and «pwell_block_2» «ind_drw_2»))

/-- `ind2_well = nwell_drw.and(ind_drw).interacting(ind2_core).sized(-1.nm)`; rule_decks/ind_derivations.lvs 56. -/
def «ind2_well» : Expr := .made "nwell_drw.and(ind_drw).interacting(ind2_core).sized(-1.nm)" (.some "nwell_drw.and(ind_drw).interacting(ind2_core)" (.and «nwell_drw_2» «ind_drw_2»))

/-- `ind2_sub = ind2_sub1.join(ind2_sub2).join(ind2_well)`; rule_decks/ind_derivations.lvs 57. -/
def «ind2_sub» : Expr := .or (.or «ind2_sub1» «ind2_sub2») «ind2_well»

/-- `ind3_ports = ind_la_tm1.join(ind_lb_tm1).join(ind_lc_tm2)`; rule_decks/ind_derivations.lvs 59. -/
def «ind3_ports» : Expr := .or (.or «ind_la_tm1» «ind_lb_tm1») «ind_lc_tm2»

/-- `ind3_sub1 = pwell.and(ind_drw).interacting(ind3_core)`; rule_decks/ind_derivations.lvs 63. -/
def «ind3_sub1» : Expr := .some "pwell.and(ind_drw).interacting(ind3_core)" (.and «pwell» «ind_drw_2»)

/-- `ind3_sub2 = pwell_block.and(ind_drw).interacting(ind3_core).sized(1.nm)`; rule_decks/ind_derivations.lvs 64. -/
def «ind3_sub2» : Expr := .made "pwell_block.and(ind_drw).interacting(ind3_core).sized(1.nm)" (.some "pwell_block.and(ind_drw).interacting(ind3_core)" (.and «pwell_block_2» «ind_drw_2»))

/-- `ind3_well = nwell_drw.and(ind_drw).interacting(ind3_core).sized(-1.nm)`; rule_decks/ind_derivations.lvs 65. -/
def «ind3_well» : Expr := .made "nwell_drw.and(ind_drw).interacting(ind3_core).sized(-1.nm)" (.some "nwell_drw.and(ind_drw).interacting(ind3_core)" (.and «nwell_drw_2» «ind_drw_2»))

/-- `ind3_sub = ind3_sub1.join(ind3_sub2).join(ind3_well)`; rule_decks/ind_derivations.lvs 66. -/
def «ind3_sub» : Expr := .or (.or «ind3_sub1» «ind3_sub2») «ind3_well»

/-- `taps_exclude = gatpoly.join(nsd_drw).join(trans_drw)`; rule_decks/tap_derivations.lvs 26. -/
def «taps_exclude» : Expr := .or (.or «gatpoly» «nsd_drw_2») «trans_drw_2»

/-- `ntap1_exc = pwell.join(psd_drw).join(taps_exclude)`; rule_decks/tap_derivations.lvs 33. -/
def «ntap1_exc» : Expr := .or (.or «pwell» «psd_drw_2») «taps_exclude»

/-- `ntap1_tie = nactiv.and(ntap1_mk).extents.not(ntap1_exc)`; rule_decks/tap_derivations.lvs 35. -/
def «ntap1_tie» : Expr := .diff (.made "nactiv.and(ntap1_mk).extents" (.and «nactiv» «ntap1_mk»)) «ntap1_exc»

/-- `ntap1_well = ntap1_mk.covering(ntap1_tie)`; rule_decks/tap_derivations.lvs 36. -/
def «ntap1_well» : Expr := .some "ntap1_mk.covering(ntap1_tie)" «ntap1_mk»

/-- `ptap1_exc = nwell_drw.join(taps_exclude)`; rule_decks/tap_derivations.lvs 39. -/
def «ptap1_exc» : Expr := .or «nwell_drw_2» «taps_exclude»

/-- `ptap1_tie = pactiv.and(ptap1_mk).extents.not(ptap1_exc)`; rule_decks/tap_derivations.lvs 41. -/
def «ptap1_tie» : Expr := .diff (.made "pactiv.and(ptap1_mk).extents" (.and «pactiv» «ptap1_mk»)) «ptap1_exc»

/-- `ptap1_sub = pwell.covering(ptap1_tie)`; rule_decks/tap_derivations.lvs 42. -/
def «ptap1_sub» : Expr := .some "pwell.covering(ptap1_tie)" «pwell»

/-- `metal5_n_cap = metal5_drw.not(mim_drw)`; sg13g2.lvs 352. -/
def «metal5_n_cap» : Expr := .diff «metal5_drw_2» «mim_drw_2»

/-- `metal5_cap = metal5_drw.and(mim_drw)`; sg13g2.lvs 353. -/
def «metal5_cap» : Expr := .and «metal5_drw_2» «mim_drw_2»

/-- `cont_poly_con = cont_drw.and(poly_con)`; sg13g2.lvs 360. -/
def «cont_poly_con» : Expr := .and «cont_drw_2» «poly_con»

/-- `cont_nsd_con = cont_drw.and(nsd_fet)`; sg13g2.lvs 361. -/
def «cont_nsd_con» : Expr := .and «cont_drw_2» «nsd_fet»

/-- `cont_psd_con = cont_drw.and(psd_fet)`; sg13g2.lvs 362. -/
def «cont_psd_con» : Expr := .and «cont_drw_2» «psd_fet»

/-- `poly_pin = polygons(5 , 2)`; sg13g2.lvs 369. -/
def «poly_pin» : Expr := .drawn 5 2

/-- `metal1_pin = polygons(8 , 2)`; sg13g2.lvs 370. -/
def «metal1_pin» : Expr := .drawn 8 2

/-- `metal2_pin = polygons(10 , 2)`; sg13g2.lvs 371. -/
def «metal2_pin» : Expr := .drawn 10 2

/-- `metal3_pin = polygons(30 , 2)`; sg13g2.lvs 372. -/
def «metal3_pin» : Expr := .drawn 30 2

/-- `metal4_pin = polygons(50 , 2)`; sg13g2.lvs 373. -/
def «metal4_pin» : Expr := .drawn 50 2

/-- `metal5_pin = polygons(67 , 2)`; sg13g2.lvs 374. -/
def «metal5_pin» : Expr := .drawn 67 2

/-- `topmetal1_pin = polygons(126, 2)`; sg13g2.lvs 375. -/
def «topmetal1_pin» : Expr := .drawn 126 2

/-- `topmetal2_pin = polygons(134, 2)`; sg13g2.lvs 376. -/
def «topmetal2_pin» : Expr := .drawn 134 2

/-- `poly_pin_con = poly_pin & poly_con`; sg13g2.lvs 382. -/
def «poly_pin_con» : Expr := .and «poly_pin» «poly_con»

/-- `metal1_pin_con = metal1_pin & metal1_con`; sg13g2.lvs 383. -/
def «metal1_pin_con» : Expr := .and «metal1_pin» «metal1_con»

/-- `metal2_pin_con = metal2_pin & metal2_con`; sg13g2.lvs 384. -/
def «metal2_pin_con» : Expr := .and «metal2_pin» «metal2_con»

/-- `metal3_pin_con = metal3_pin & metal3_con`; sg13g2.lvs 385. -/
def «metal3_pin_con» : Expr := .and «metal3_pin» «metal3_con»

/-- `metal4_pin_con = metal4_pin & metal4_con`; sg13g2.lvs 386. -/
def «metal4_pin_con» : Expr := .and «metal4_pin» «metal4_con»

/-- `metal5_pin_con = metal5_pin & metal5_con`; sg13g2.lvs 387. -/
def «metal5_pin_con» : Expr := .and «metal5_pin» «metal5_con»

/-- `topmetal1_pin_con = topmetal1_pin & topmetal1_con`; sg13g2.lvs 388. -/
def «topmetal1_pin_con» : Expr := .and «topmetal1_pin» «topmetal1_con»

/-- `topmetal2_pin_con = topmetal2_pin & topmetal2_con`; sg13g2.lvs 389. -/
def «topmetal2_pin_con» : Expr := .and «topmetal2_pin» «topmetal2_con»

/-- `poly_text = labels(5, 25)`; sg13g2.lvs 397. -/
def «poly_text» : Expr := .text 5 25

/-- The layers of the technology and of the `connect` statements, by name. -/
def layers : List (String × Expr) := [
  ("pwell", «pwell»), ("pwell_sub", «pwell_sub»), ("nwell_drw", «nwell_drw_2»), ("nsd_fet", «nsd_fet»),
  ("psd_fet", «psd_fet»), ("ntap", «ntap»), ("ptap", «ptap»), ("poly_con", «poly_con»), ("metal1_con", «metal1_con»),
  ("metal2_con", «metal2_con»), ("metal3_con", «metal3_con»), ("metal4_con", «metal4_con»),
  ("metal5_n_cap", «metal5_n_cap»), ("topmetal1_con", «topmetal1_con»), ("topmetal2_con", «topmetal2_con»),
  ("cont_nsd_con", «cont_nsd_con»), ("cont_psd_con", «cont_psd_con»), ("cont_poly_con", «cont_poly_con»),
  ("via1_drw", «via1_drw_2»), ("via2_drw", «via2_drw_2»), ("via3_drw", «via3_drw_2»), ("via4_drw", «via4_drw_2»),
  ("topvia1_n_cap", «topvia1_n_cap»), ("topvia2_drw", «topvia2_drw_2»), ("mim_via", «mim_via»),
  ("metal5_cap", «metal5_cap»), ("cmim_top", «cmim_top»), ("poly_pin_con", «poly_pin_con»),
  ("metal1_pin_con", «metal1_pin_con»), ("metal2_pin_con", «metal2_pin_con»), ("metal3_pin_con", «metal3_pin_con»),
  ("metal4_pin_con", «metal4_pin_con»), ("metal5_pin_con", «metal5_pin_con»),
  ("topmetal1_pin_con", «topmetal1_pin_con»), ("topmetal2_pin_con", «topmetal2_pin_con»), ("poly_text", «poly_text»),
  ("metal1_text", «metal1_text_2»), ("metal2_text", «metal2_text_2»), ("metal3_text", «metal3_text_2»),
  ("metal4_text", «metal4_text_2»), ("metal5_text", «metal5_text_2»), ("topmetal1_text", «topmetal1_text_2»),
  ("topmetal2_text", «topmetal2_text_2»), ("metal5_con", «metal5_con»), ("cont_drw", «cont_drw_2»),
  ("nsd_ptap_abutt", «nsd_ptap_abutt»), ("psd_ntap_abutt", «psd_ntap_abutt»), ("npn_sub", «npn_sub»),
  ("npn13G2_te", «npn13G2_te»), ("npn13G2_e_pin", «npn13G2_e_pin»), ("npn13G2_tc", «npn13G2_tc»),
  ("npn13G2_c_pin", «npn13G2_c_pin»), ("npn13G2_tb", «npn13G2_tb»), ("npn13G2_b_pin", «npn13G2_b_pin»),
  ("emwind_drw", «emwind_drw_2»), ("npn13G2l_te", «npn13G2l_te»), ("npn13G2l_e_pin", «npn13G2l_e_pin»),
  ("npn13G2l_tc", «npn13G2l_tc»), ("npn13G2l_c_pin", «npn13G2l_c_pin»), ("npn13G2l_tb", «npn13G2l_tb»),
  ("npn13G2l_b_pin", «npn13G2l_b_pin»), ("npn13G2v_te", «npn13G2v_te»), ("npn13G2v_e_pin", «npn13G2v_e_pin»),
  ("npn13G2v_tc", «npn13G2v_tc»), ("npn13G2v_c_pin", «npn13G2v_c_pin»), ("npn13G2v_tb", «npn13G2v_tb»),
  ("npn13G2v_b_pin", «npn13G2v_b_pin»), ("pnp_mpa_e", «pnp_mpa_e»), ("pnp_mpa_b", «pnp_mpa_b»),
  ("pnp_mpa_c", «pnp_mpa_c»), ("dantenna_n", «dantenna_n»), ("dantenna_p", «dantenna_p»),
  ("dpantenna_n", «dpantenna_n»), ("dpantenna_p", «dpantenna_p»), ("schottcky_p_1x1", «schottcky_p_1x1»),
  ("schottcky_p", «schottcky_p»), ("schottcky_n", «schottcky_n»), ("schottcky_n_port", «schottcky_n_port»),
  ("schottcky_n_con", «schottcky_n_con»), ("rsil_ports", «rsil_ports»), ("rppd_ports", «rppd_ports»),
  ("rhigh_ports", «rhigh_ports»), ("cmim_btm", «cmim_btm»), ("rfmim_btm", «rfmim_btm»), ("rfmim_top", «rfmim_top»),
  ("rfmim_sub", «rfmim_sub»), ("varicap_ports", «varicap_ports»), ("text_drw", «text_drw_2»),
  ("varicap_sub", «varicap_sub»), ("diodevdd_2kv_e_1x1", «diodevdd_2kv_e_1x1»), ("diodevdd_2kv_e", «diodevdd_2kv_e»),
  ("diodevdd_2kv_b", «diodevdd_2kv_b»), ("diodevdd_2kv_tb", «diodevdd_2kv_tb»), ("diodevdd_2kv_c", «diodevdd_2kv_c»),
  ("diodevdd_4kv_e_1x1", «diodevdd_4kv_e_1x1»), ("diodevdd_4kv_e", «diodevdd_4kv_e»),
  ("diodevdd_4kv_te", «diodevdd_4kv_te»), ("diodevdd_4kv_b", «diodevdd_4kv_b»),
  ("diodevdd_4kv_tb", «diodevdd_4kv_tb»), ("diodevdd_4kv_c", «diodevdd_4kv_c»),
  ("diodevss_2kv_e_1x1", «diodevss_2kv_e_1x1»), ("diodevss_2kv_e", «diodevss_2kv_e»),
  ("diodevss_2kv_b", «diodevss_2kv_b»), ("diodevss_2kv_tb", «diodevss_2kv_tb»), ("diodevss_2kv_c", «diodevss_2kv_c»),
  ("diodevss_4kv_e_1x1", «diodevss_4kv_e_1x1»), ("diodevss_4kv_e", «diodevss_4kv_e»),
  ("diodevss_4kv_te", «diodevss_4kv_te»), ("diodevss_4kv_b", «diodevss_4kv_b»),
  ("diodevss_4kv_tb", «diodevss_4kv_tb»), ("diodevss_4kv_c", «diodevss_4kv_c»),
  ("idiodevdd_2kv_e_1x1", «idiodevdd_2kv_e_1x1»), ("idiodevdd_2kv_e", «idiodevdd_2kv_e»),
  ("idiodevdd_2kv_b", «idiodevdd_2kv_b»), ("idiodevdd_2kv_tb", «idiodevdd_2kv_tb»),
  ("idiodevdd_2kv_c", «idiodevdd_2kv_c»), ("idiodevdd_4kv_e_1x1", «idiodevdd_4kv_e_1x1»),
  ("idiodevdd_4kv_e", «idiodevdd_4kv_e»), ("idiodevdd_4kv_te", «idiodevdd_4kv_te»),
  ("idiodevdd_4kv_b", «idiodevdd_4kv_b»), ("idiodevdd_4kv_tb", «idiodevdd_4kv_tb»),
  ("idiodevdd_4kv_c", «idiodevdd_4kv_c»), ("idiodevss_2kv_e_1x1", «idiodevss_2kv_e_1x1»),
  ("idiodevss_2kv_e", «idiodevss_2kv_e»), ("idiodevss_2kv_b", «idiodevss_2kv_b»),
  ("idiodevss_2kv_tb", «idiodevss_2kv_tb»), ("idiodevss_2kv_c", «idiodevss_2kv_c»),
  ("idiodevss_4kv_e_1x1", «idiodevss_4kv_e_1x1»), ("idiodevss_4kv_e", «idiodevss_4kv_e»),
  ("idiodevss_4kv_te", «idiodevss_4kv_te»), ("idiodevss_4kv_b", «idiodevss_4kv_b»),
  ("idiodevss_4kv_tb", «idiodevss_4kv_tb»), ("idiodevss_4kv_c", «idiodevss_4kv_c»), ("nmoscl_2_n", «nmoscl_2_n»),
  ("nmoscl_2_n_port", «nmoscl_2_n_port»), ("nmoscl_2_p", «nmoscl_2_p»), ("nmoscl_2_p_", «nmoscl_2_p_»),
  ("nmoscl_4_n", «nmoscl_4_n»), ("nmoscl_4_n_port", «nmoscl_4_n_port»), ("nmoscl_4_p", «nmoscl_4_p»),
  ("nmoscl_4_p_", «nmoscl_4_p_»), ("ind2_ports", «ind2_ports»), ("ind_pin", «ind_pin_2»), ("ind_text", «ind_text_2»),
  ("ind2_sub", «ind2_sub»), ("ind3_ports", «ind3_ports»), ("ind3_sub", «ind3_sub»), ("ntap1_tie", «ntap1_tie»),
  ("ntap1_well", «ntap1_well»), ("ptap1_tie", «ptap1_tie»), ("ptap1_sub", «ptap1_sub»)]

/-- The `connect` statements, in the order of the script. -/
def connects : List (String × String) := [
  ("metal5_n_cap", "metal5_con"), ("metal5_cap", "metal5_con"), ("cont_poly_con", "cont_drw"),
  ("cont_nsd_con", "cont_drw"), ("cont_psd_con", "cont_drw"), ("poly_con", "poly_pin_con"),
  ("metal1_con", "metal1_pin_con"), ("metal2_con", "metal2_pin_con"), ("metal3_con", "metal3_pin_con"),
  ("metal4_con", "metal4_pin_con"), ("metal5_con", "metal5_pin_con"), ("topmetal1_con", "topmetal1_pin_con"),
  ("topmetal2_con", "topmetal2_pin_con"), ("poly_text", "poly_con"), ("pwell_sub", "pwell"), ("pwell", "ptap"),
  ("nwell_drw", "ntap"), ("ntap", "cont_drw"), ("ptap", "cont_drw"), ("poly_con", "cont_drw"),
  ("nsd_fet", "cont_drw"), ("psd_fet", "cont_drw"), ("cont_drw", "metal1_con"), ("metal1_con", "via1_drw"),
  ("via1_drw", "metal2_con"), ("metal2_con", "via2_drw"), ("via2_drw", "metal3_con"), ("metal3_con", "via3_drw"),
  ("via3_drw", "metal4_con"), ("metal4_con", "via4_drw"), ("via4_drw", "metal5_con"),
  ("metal5_con", "topvia1_n_cap"), ("topvia1_n_cap", "topmetal1_con"), ("topmetal1_con", "topvia2_drw"),
  ("topvia2_drw", "topmetal2_con"), ("nsd_fet", "nsd_ptap_abutt"), ("nsd_ptap_abutt", "ptap"),
  ("psd_fet", "psd_ntap_abutt"), ("psd_ntap_abutt", "ntap"), ("metal1_con", "metal1_text"),
  ("metal2_con", "metal2_text"), ("metal3_con", "metal3_text"), ("metal4_con", "metal4_text"),
  ("metal5_con", "metal5_text"), ("topmetal1_con", "topmetal1_text"), ("topmetal2_con", "topmetal2_text"),
  ("npn_sub", "pwell"), ("npn13G2_te", "npn13G2_e_pin"), ("npn13G2_tc", "npn13G2_c_pin"),
  ("npn13G2_tb", "npn13G2_b_pin"), ("npn13G2_e_pin", "cont_drw"), ("npn13G2_c_pin", "cont_drw"),
  ("npn13G2_b_pin", "cont_drw"), ("npn_sub", "pwell"), ("npn13G2_e_pin", "emwind_drw"), ("emwind_drw", "metal1_con"),
  ("npn13G2l_te", "npn13G2l_e_pin"), ("npn13G2l_tc", "npn13G2l_c_pin"), ("npn13G2l_tb", "npn13G2l_b_pin"),
  ("npn13G2l_e_pin", "cont_drw"), ("npn13G2l_c_pin", "cont_drw"), ("npn13G2l_b_pin", "cont_drw"),
  ("npn_sub", "pwell"), ("npn13G2v_te", "npn13G2v_e_pin"), ("npn13G2v_tc", "npn13G2v_c_pin"),
  ("npn13G2v_tb", "npn13G2v_b_pin"), ("npn13G2v_e_pin", "cont_drw"), ("npn13G2v_c_pin", "cont_drw"),
  ("npn13G2v_b_pin", "cont_drw"), ("npn_sub", "pwell"), ("pnp_mpa_e", "cont_drw"), ("pnp_mpa_b", "cont_drw"),
  ("pnp_mpa_c", "cont_drw"), ("dantenna_n", "cont_drw"), ("dantenna_p", "pwell"), ("dpantenna_n", "nwell_drw"),
  ("dpantenna_p", "cont_drw"), ("schottcky_p_1x1", "schottcky_p"), ("schottcky_p", "metal1_con"),
  ("schottcky_n", "schottcky_n_port"), ("schottcky_n_port", "schottcky_n_con"), ("schottcky_n_con", "metal1_con"),
  ("rsil_ports", "cont_drw"), ("rppd_ports", "cont_drw"), ("rhigh_ports", "cont_drw"), ("cmim_btm", "metal5_con"),
  ("cmim_top", "mim_via"), ("mim_via", "topmetal1_con"), ("rfmim_btm", "metal5_con"), ("rfmim_top", "mim_via"),
  ("rfmim_sub", "ptap"), ("varicap_ports", "cont_drw"), ("varicap_ports", "text_drw"), ("varicap_sub", "ptap"),
  ("diodevdd_2kv_e_1x1", "diodevdd_2kv_e"), ("diodevdd_2kv_e", "cont_drw"), ("diodevdd_2kv_b", "diodevdd_2kv_tb"),
  ("diodevdd_2kv_tb", "cont_drw"), ("diodevdd_2kv_c", "cont_drw"), ("diodevdd_4kv_e_1x1", "diodevdd_4kv_e"),
  ("diodevdd_4kv_e", "diodevdd_4kv_te"), ("diodevdd_4kv_te", "cont_drw"), ("diodevdd_4kv_b", "diodevdd_4kv_tb"),
  ("diodevdd_4kv_tb", "cont_drw"), ("diodevdd_4kv_c", "cont_drw"), ("diodevss_2kv_e_1x1", "diodevss_2kv_e"),
  ("diodevss_2kv_e", "cont_drw"), ("diodevss_2kv_b", "diodevss_2kv_tb"), ("diodevss_2kv_tb", "cont_drw"),
  ("diodevss_2kv_c", "cont_drw"), ("diodevss_4kv_e_1x1", "diodevss_4kv_e"), ("diodevss_4kv_e", "diodevss_4kv_te"),
  ("diodevss_4kv_te", "cont_drw"), ("diodevss_4kv_b", "diodevss_4kv_tb"), ("diodevss_4kv_tb", "cont_drw"),
  ("diodevss_4kv_c", "cont_drw"), ("idiodevdd_2kv_e_1x1", "idiodevdd_2kv_e"), ("idiodevdd_2kv_e", "cont_drw"),
  ("idiodevdd_2kv_b", "idiodevdd_2kv_tb"), ("idiodevdd_2kv_tb", "cont_drw"), ("idiodevdd_2kv_c", "cont_drw"),
  ("idiodevdd_4kv_e_1x1", "idiodevdd_4kv_e"), ("idiodevdd_4kv_e", "idiodevdd_4kv_te"),
  ("idiodevdd_4kv_te", "cont_drw"), ("idiodevdd_4kv_b", "idiodevdd_4kv_tb"), ("idiodevdd_4kv_tb", "cont_drw"),
  ("idiodevdd_4kv_c", "cont_drw"), ("idiodevss_2kv_e_1x1", "idiodevss_2kv_e"), ("idiodevss_2kv_e", "cont_drw"),
  ("idiodevss_2kv_b", "idiodevss_2kv_tb"), ("idiodevss_2kv_tb", "cont_drw"), ("idiodevss_2kv_c", "cont_drw"),
  ("idiodevss_4kv_e_1x1", "idiodevss_4kv_e"), ("idiodevss_4kv_e", "idiodevss_4kv_te"),
  ("idiodevss_4kv_te", "cont_drw"), ("idiodevss_4kv_b", "idiodevss_4kv_tb"), ("idiodevss_4kv_tb", "cont_drw"),
  ("idiodevss_4kv_c", "cont_drw"), ("nmoscl_2_n", "nmoscl_2_n_port"), ("nmoscl_2_n_port", "cont_drw"),
  ("nmoscl_2_p", "nmoscl_2_p_"), ("nmoscl_2_p_", "ptap"), ("nmoscl_4_n", "nmoscl_4_n_port"),
  ("nmoscl_4_n_port", "cont_drw"), ("nmoscl_4_p", "nmoscl_4_p_"), ("nmoscl_4_p_", "ptap"), ("ind2_ports", "ind_pin"),
  ("ind_pin", "ind_text"), ("ind_pin", "topmetal2_con"), ("ind2_sub", "pwell"), ("ind2_sub", "nwell_drw"),
  ("ind3_ports", "ind_pin"), ("ind_pin", "topmetal1_con"), ("ind3_sub", "pwell"), ("ind3_sub", "nwell_drw"),
  ("ntap1_tie", "cont_drw"), ("ntap1_well", "nwell_drw"), ("ptap1_tie", "cont_drw"), ("ptap1_sub", "pwell")]

/-- The names given to layers with `name(eval(l), l)`, in the order of the script. -/
def names : List String := [
  "activ", "activ_OPC", "activ_drw", "activ_filler", "activ_iOPC", "activ_mask", "activ_nofill", "activ_noqrc",
  "activ_pin", "alcustop_drw", "antmetal1_drw", "antmetal2_drw", "antvia1_drw", "backmetal1_OPC",
  "backmetal1_diffprb", "backmetal1_drw", "backmetal1_filler", "backmetal1_iprobe", "backmetal1_mask",
  "backmetal1_nofill", "backmetal1_noqrc", "backmetal1_pin", "backmetal1_res", "backmetal1_slit", "backmetal1_text",
  "backpassiv_drw", "baspoly_drw", "baspoly_pin", "biwind_OPC", "biwind_drw", "colopen_drw", "colwind_drw",
  "cont_OPC", "cont_drw", "ctrgat_drw", "deepco_drw", "deepvia_drw", "devbondmet_drw", "devbondvia_drw",
  "devtrench_drw", "dfpad_drw", "dfpad_pillar", "dfpad_sbump", "digibnd_drw", "digisub_drw", "edgeseal_drw",
  "empoly_drw", "emwihv3_drw", "emwihv_drw", "emwind3_drw", "emwind_OPC", "emwind_drw", "exchange0_drw",
  "exchange0_pin", "exchange0_text", "exchange1_drw", "exchange1_pin", "exchange1_text", "exchange2_drw",
  "exchange2_pin", "exchange2_text", "exchange3_drw", "exchange3_pin", "exchange3_text", "exchange4_drw",
  "exchange4_pin", "exchange4_text", "extblock_drw", "fbe_drw", "fgetch_drw", "fgimp_drw", "flm_drw", "gatpoly",
  "gatpoly_OPC", "gatpoly_drw", "gatpoly_filler", "gatpoly_iOPC", "gatpoly_nofill", "gatpoly_noqrc", "gatpoly_pin",
  "graphbot_drw", "graphcont_drw", "graphgate_drw", "graphmet1l_OPC", "graphmet1l_drw", "graphmet1l_filler",
  "graphmet1l_nofill", "graphmet1l_slit", "graphmetal1_OPC", "graphmetal1_drw", "graphmetal1_filler",
  "graphmetal1_nofill", "graphmetal1_slit", "graphpad_drw", "graphpas_drw", "graphtop_drw", "hafniumox_drw",
  "heatres_drw", "heattrans_drw", "ic_drw", "ind_drw", "ind_pin", "ind_text", "inldpwl_drw", "intbondmet_drw",
  "intbondvia_drw", "isonwell_drw", "lbe_drw", "memcap_drw", "mempad_drw", "memvia_drw", "metal1", "metal1_OPC",
  "metal1_diffprb", "metal1_drw", "metal1_filler", "metal1_iprobe", "metal1_mask", "metal1_nofill", "metal1_noqrc",
  "metal1_pin", "metal1_res", "metal1_slit", "metal1_text", "metal2", "metal2_OPC", "metal2_diffprb", "metal2_drw",
  "metal2_filler", "metal2_iprobe", "metal2_mask", "metal2_nofill", "metal2_noqrc", "metal2_pin", "metal2_res",
  "metal2_slit", "metal2_text", "metal3", "metal3_OPC", "metal3_diffprb", "metal3_drw", "metal3_filler",
  "metal3_iprobe", "metal3_mask", "metal3_nofill", "metal3_noqrc", "metal3_pin", "metal3_res", "metal3_slit",
  "metal3_text", "metal4", "metal4_OPC", "metal4_diffprb", "metal4_drw", "metal4_filler", "metal4_iprobe",
  "metal4_mask", "metal4_nofill", "metal4_noqrc", "metal4_pin", "metal4_res", "metal4_slit", "metal4_text", "metal5",
  "metal5_OPC", "metal5_diffprb", "metal5_drw", "metal5_filler", "metal5_iprobe", "metal5_mask", "metal5_nofill",
  "metal5_noqrc", "metal5_pin", "metal5_res", "metal5_slit", "metal5_text", "mim_drw", "nbulay_block", "nbulay_drw",
  "nbulay_pin", "nbulaycut_drw", "next_drw", "nexthv_drw", "nldb_drw", "nldd_drw", "nometfiller_drw", "norcx_drw",
  "norcx_m1sub", "norcx_m2m3", "norcx_m2m4", "norcx_m2m5", "norcx_m2sub", "norcx_m2tm1", "norcx_m2tm2", "norcx_m3m4",
  "norcx_m3m5", "norcx_m3sub", "norcx_m3tm1", "norcx_m3tm2", "norcx_m4m5", "norcx_m4sub", "norcx_m4tm1",
  "norcx_m4tm2", "norcx_m5sub", "norcx_m5tm1", "norcx_m5tm2", "norcx_tm1sub", "norcx_tm1tm2", "norcx_tm2sub",
  "nsd_block", "nsd_drw", "nwell_drw", "nwell_pin", "passiv_drw", "passiv_pdl", "passiv_pillar", "passiv_pin",
  "passiv_sbump", "pext_drw", "pexthv_drw", "pldb_drw", "pldd_drw", "polimide_drw", "polimide_pin", "polyres_drw",
  "polyres_pin", "prboundary_drw", "psd_drw", "pwell_block", "pwell_drw", "pwell_pin", "radhard_drw",
  "recog_diffprb", "recog_diode", "recog_drw", "recog_esd", "recog_iprobe", "recog_mom", "recog_otp", "recog_pcm",
  "recog_pdiode", "recog_pillar", "recog_pin", "recog_sbump", "recog_tsv", "redbulay_drw", "redist_drw", "res_drw",
  "rfmem_drw", "salblock_drw", "sensor_drw", "sigrating_drw", "singrating_drw", "sinwg_drw", "sinwg_filler",
  "sinwg_nofill", "siwg_drw", "siwg_filler", "siwg_nofill", "smos_drw", "snsarms_drw", "snsbotvia_drw",
  "snscmosvia_drw", "snsring_drw", "snstopvia_drw", "sram_drw", "substrate_drw", "substrate_text", "text_drw",
  "thickgateox_drw", "thinfilmres_drw", "topmetal1", "topmetal1_diffprb", "topmetal1_drw", "topmetal1_filler",
  "topmetal1_iprobe", "topmetal1_mask", "topmetal1_nofill", "topmetal1_noqrc", "topmetal1_pin", "topmetal1_res",
  "topmetal1_slit", "topmetal1_text", "topmetal2", "topmetal2_diffprb", "topmetal2_drw", "topmetal2_filler",
  "topmetal2_iprobe", "topmetal2_mask", "topmetal2_nofill", "topmetal2_noqrc", "topmetal2_pin", "topmetal2_res",
  "topmetal2_slit", "topmetal2_text", "topvia1_drw", "topvia2_drw", "trans_drw", "varicap_drw", "via1_drw",
  "via2_drw", "via3_drw", "via4_drw", "vmim_drw", "nwell_iso", "nwell_holes", "pwell_allowed", "digisub_gap",
  "pwell", "pwell_sub", "nactiv", "pactiv", "res_mk", "poly_con", "metal1_con", "metal2_con", "metal3_con",
  "metal4_con", "metal5_con", "topmetal1_con", "topmetal2_con", "tgate", "ngate", "pgate", "ngate_lv_base",
  "pgate_lv_base", "ngate_hv_base", "pgate_hv_base", "nsd_fet", "psd_fet", "ntap1_lbl", "ntap1_mk", "ntap", "ptap",
  "ptap_holes", "ntap_holes", "nsd_sal", "psd_sal", "ntap_sal", "ptap_sal", "nsd_ptap_abutt", "psd_ntap_abutt",
  "mimcap_exclude", "mim_top", "mim_btm", "mim_via", "topvia1_n_cap", "cmim_top", "cmim_btm", "cmim_dev",
  "rfmim_area", "rfmim_top", "rfmim_btm", "rfmim_dev", "rfmim_sub", "rfmeas_mk", "cap_exc", "varicap_exc",
  "varicap_core", "varicap_diff_port", "varicap_poly_port", "varicap_ports", "varicap_sub", "varicap_dev_mk",
  "polyres_exclude", "polyres_mk", "rhigh_res", "rhigh_ports", "rppd_res", "rppd_ports", "rsil_exc", "rsil_res",
  "rsil_ports", "res_metal1", "res_metal2", "res_metal3", "res_metal4", "res_metal5", "res_topmetal1",
  "res_topmetal2", "metal5_cap", "metal5_n_cap", "cont_poly_con", "cont_nsd_con", "cont_psd_con", "poly_pin",
  "metal1_pin", "metal2_pin", "metal3_pin", "metal4_pin", "metal5_pin", "topmetal1_pin", "topmetal2_pin",
  "poly_pin_con", "metal1_pin_con", "metal2_pin_con", "metal3_pin_con", "metal4_pin_con", "metal5_pin_con",
  "topmetal1_pin_con", "topmetal2_pin_con", "poly_text"]

/-- The script. -/
def script : Script := ⟨layers, connects, names⟩

end Verif.LvsRules.Sg13g2
