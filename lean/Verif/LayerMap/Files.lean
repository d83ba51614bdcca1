import Verif.LayerMap.Model

/-!
# The layer files of the repository

Generated by `tools/gen_lyp.py`: name and source of every entry, in the order of the file.
-/

namespace Verif.LayerMap

set_option maxRecDepth 100000

/-- A text as the list of its characters. -/
local macro "t!" s:str : term => do
  let cs := s.getString.toList.map Lean.Syntax.mkCharLit
  `([$(cs.toArray),*])

/-- pdk/sky130A/libs.tech/kpex/sky130A.lyp, `/layer-properties/properties`: texts of `name` and `source`. -/
noncomputable def skyFile : List (Str × Str) := [
  (t!"prBoundary.boundary - 235/4", t!"235/4@1"), (t!"pwell.drawing - 64/44", t!"64/44@1"),
  (t!"pwell.pin - 122/16", t!"122/16@1"), (t!"pwell.label - 64/59", t!"64/59@1"), (t!"pwell.res - 64/13", t!"64/13@1"),
  (t!"pwell.cut - 64/14", t!"64/14@1"), (t!"pwelliso.pin - 44/16", t!"44/16@1"), (t!"pwelliso.label - 44/5", t!"44/5@1"),
  (t!"nwell.drawing - 64/20", t!"64/20@1"), (t!"nwell.net - 84/23", t!"84/23@1"), (t!"nwell.pin - 64/16", t!"64/16@1"),
  (t!"nwell.label - 64/5", t!"64/5@1"), (t!"dnwell.drawing - 64/18", t!"64/18@1"), (t!"vhvi.drawing - 74/21", t!"74/21@1"),
  (t!"diff.drawing - 65/20", t!"65/20@1"), (t!"diff.res - 65/13", t!"65/13@1"), (t!"diff.cut - 65/14", t!"65/14@1"),
  (t!"diff.pin - 65/16", t!"65/16@1"), (t!"diff.label - 65/6", t!"65/6@1"), (t!"diff.net - 65/23", t!"65/23@1"),
  (t!"diff.boundary - 65/4", t!"65/4@1"), (t!"diff.hv - 65/8", t!"65/8@1"), (t!"tap.drawing - 65/44", t!"65/44@1"),
  (t!"tap.pin - 65/48", t!"65/48@1"), (t!"tap.net - 65/41", t!"65/41@1"), (t!"tap.boundary - 65/60", t!"65/60@1"),
  (t!"tap.label - 65/5", t!"65/5@1"), (t!"psdm.drawing - 94/20", t!"94/20@1"), (t!"nsdm.drawing - 93/44", t!"93/44@1"),
  (t!"poly.drawing - 66/20", t!"66/20@1"), (t!"poly.pin - 66/16", t!"66/16@1"), (t!"poly.res - 66/13", t!"66/13@1"),
  (t!"poly.cut - 66/14", t!"66/14@1"), (t!"poly.gate - 66/9", t!"66/9@1"), (t!"poly.label - 66/5", t!"66/5@1"),
  (t!"poly.boundary - 66/4", t!"66/4@1"), (t!"poly.probe - 66/25", t!"66/25@1"), (t!"poly.short - 66/15", t!"66/15@1"),
  (t!"poly.net - 66/23", t!"66/23@1"), (t!"poly.model - 66/83", t!"66/83@1"), (t!"ldntm.drawing - 11/44", t!"11/44@1"),
  (t!"lvtn.drawing - 125/44", t!"125/44@1"), (t!"hvtp.drawing - 78/44", t!"78/44@1"), (t!"hvtr.drawing - 18/20", t!"18/20@1"),
  (t!"tunm.drawing - 80/20", t!"80/20@1"), (t!"licon1.drawing - 66/44", t!"66/44@1"),
  (t!"licon1.boundary - 66/60", t!"66/60@1"), (t!"licon1.pin - 66/58", t!"66/58@1"), (t!"licon1.net - 66/41", t!"66/41@1"),
  (t!"npc.drawing - 95/20", t!"95/20@1"), (t!"li1.drawing - 67/20", t!"67/20@1"), (t!"li1.pin - 67/16", t!"67/16@1"),
  (t!"li1.res - 67/13", t!"67/13@1"), (t!"li1.cut - 67/14", t!"67/14@1"), (t!"li1.label - 67/5", t!"67/5@1"),
  (t!"li1.net - 67/23", t!"67/23@1"), (t!"li1.boundary - 67/4", t!"67/4@1"), (t!"li1.blockage - 67/10", t!"67/10@1"),
  (t!"li1.short - 67/15", t!"67/15@1"), (t!"li1.probe - 67/25", t!"67/25@1"), (t!"mcon.drawing - 67/44", t!"67/44@1"),
  (t!"mcon.boundary - 67/60", t!"67/60@1"), (t!"mcon.pin - 67/48", t!"67/48@1"), (t!"mcon.net - 67/41", t!"67/41@1"),
  (t!"met1.drawing - 68/20", t!"68/20@1"), (t!"met1.res - 68/13", t!"68/13@1"), (t!"met1.cut - 68/14", t!"68/14@1"),
  (t!"met1.pin - 68/16", t!"68/16@1"), (t!"met1.label - 68/5", t!"68/5@1"), (t!"met1.net - 68/23", t!"68/23@1"),
  (t!"met1.boundary - 68/4", t!"68/4@1"), (t!"met1.blockage - 68/10", t!"68/10@1"), (t!"met1.short - 68/15", t!"68/15@1"),
  (t!"met1.probe - 68/25", t!"68/25@1"), (t!"met1.option1 - 68/32", t!"68/32@1"), (t!"met1.option2 - 68/33", t!"68/33@1"),
  (t!"met1.option3 - 68/34", t!"68/34@1"), (t!"met1.option4 - 68/35", t!"68/35@1"), (t!"met1.option5 - 68/36", t!"68/36@1"),
  (t!"met1.option6 - 68/37", t!"68/37@1"), (t!"met1.option7 - 68/38", t!"68/38@1"), (t!"met1.option8 - 68/39", t!"68/39@1"),
  (t!"via.drawing - 68/44", t!"68/44@1"), (t!"via.boundary - 68/60", t!"68/60@1"), (t!"via.net - 68/41", t!"68/41@1"),
  (t!"via.pin - 68/58", t!"68/58@1"), (t!"met2.drawing - 69/20", t!"69/20@1"), (t!"met2.res - 69/13", t!"69/13@1"),
  (t!"met2.cut - 69/14", t!"69/14@1"), (t!"met2.pin - 69/16", t!"69/16@1"), (t!"met2.label - 69/5", t!"69/5@1"),
  (t!"met2.net - 69/23", t!"69/23@1"), (t!"met2.boundary - 69/4", t!"69/4@1"), (t!"met2.blockage - 69/10", t!"69/10@1"),
  (t!"met2.short - 69/15", t!"69/15@1"), (t!"met2.probe - 69/25", t!"69/25@1"), (t!"met2.option1 - 69/32", t!"69/32@1"),
  (t!"met2.option2 - 69/33", t!"69/33@1"), (t!"met2.option3 - 69/34", t!"69/34@1"), (t!"met2.option4 - 69/35", t!"69/35@1"),
  (t!"met2.option5 - 69/36", t!"69/36@1"), (t!"met2.option6 - 69/37", t!"69/37@1"), (t!"met2.option7 - 69/38", t!"69/38@1"),
  (t!"met2.option8 - 69/39", t!"69/39@1"), (t!"via2.drawing - 69/44", t!"69/44@1"), (t!"via2.boundary - 69/60", t!"69/60@1"),
  (t!"via2.pin - 69/58", t!"69/58@1"), (t!"via2.net - 69/41", t!"69/41@1"), (t!"met3.drawing - 70/20", t!"70/20@1"),
  (t!"met3.res - 70/13", t!"70/13@1"), (t!"met3.cut - 70/14", t!"70/14@1"), (t!"met3.pin - 70/16", t!"70/16@1"),
  (t!"met3.label - 70/5", t!"70/5@1"), (t!"met3.net - 70/23", t!"70/23@1"), (t!"met3.boundary - 70/4", t!"70/4@1"),
  (t!"met3.blockage - 70/10", t!"70/10@1"), (t!"met3.short - 70/15", t!"70/15@1"), (t!"met3.fuse - 70/17", t!"70/17@1"),
  (t!"met3.probe - 70/25", t!"70/25@1"), (t!"met3.option1 - 70/32", t!"70/32@1"), (t!"met3.option2 - 70/33", t!"70/33@1"),
  (t!"met3.option3 - 70/34", t!"70/34@1"), (t!"met3.option4 - 70/35", t!"70/35@1"), (t!"met3.option5 - 70/36", t!"70/36@1"),
  (t!"met3.option6 - 70/37", t!"70/37@1"), (t!"met3.option7 - 70/38", t!"70/38@1"), (t!"met3.option8 - 70/39", t!"70/39@1"),
  (t!"via3.drawing - 70/44", t!"70/44@1"), (t!"via3.boundary - 70/60", t!"70/60@1"), (t!"via3.pin - 70/48", t!"70/48@1"),
  (t!"via3.net - 70/41", t!"70/41@1"), (t!"met4.drawing - 71/20", t!"71/20@1"), (t!"met4.res - 71/13", t!"71/13@1"),
  (t!"met4.cut - 71/14", t!"71/14@1"), (t!"met4.pin - 71/16", t!"71/16@1"), (t!"met4.label - 71/5", t!"71/5@1"),
  (t!"met4.net - 71/23", t!"71/23@1"), (t!"met4.boundary - 71/4", t!"71/4@1"), (t!"met4.blockage - 71/10", t!"71/10@1"),
  (t!"met4.short - 71/15", t!"71/15@1"), (t!"met4.fuse - 71/17", t!"71/17@1"), (t!"met4.probe - 71/25", t!"71/25@1"),
  (t!"met4.option1 - 71/32", t!"71/32@1"), (t!"met4.option2 - 71/33", t!"71/33@1"), (t!"met4.option3 - 71/34", t!"71/34@1"),
  (t!"met4.option4 - 71/35", t!"71/35@1"), (t!"met4.option5 - 71/36", t!"71/36@1"), (t!"met4.option6 - 71/37", t!"71/37@1"),
  (t!"met4.option7 - 71/38", t!"71/38@1"), (t!"met4.option8 - 71/39", t!"71/39@1"), (t!"via4.drawing - 71/44", t!"71/44@1"),
  (t!"via4.boundary - 71/60", t!"71/60@1"), (t!"via4.pin - 71/48", t!"71/48@1"), (t!"via4.net - 71/41", t!"71/41@1"),
  (t!"met5.drawing - 72/20", t!"72/20@1"), (t!"met5.res - 72/13", t!"72/13@1"), (t!"met5.cut - 72/14", t!"72/14@1"),
  (t!"met5.pin - 72/16", t!"72/16@1"), (t!"met5.label - 72/5", t!"72/5@1"), (t!"met5.net - 72/23", t!"72/23@1"),
  (t!"met5.boundary - 72/4", t!"72/4@1"), (t!"met5.blockage - 72/10", t!"72/10@1"), (t!"met5.short - 72/15", t!"72/15@1"),
  (t!"met5.fuse - 72/17", t!"72/17@1"), (t!"met5.probe - 72/25", t!"72/25@1"), (t!"met5.option1 - 72/32", t!"72/32@1"),
  (t!"met5.option2 - 72/33", t!"72/33@1"), (t!"met5.option3 - 72/34", t!"72/34@1"), (t!"met5.option4 - 72/35", t!"72/35@1"),
  (t!"met5.option5 - 72/36", t!"72/36@1"), (t!"met5.option6 - 72/37", t!"72/37@1"), (t!"met5.option7 - 72/38", t!"72/38@1"),
  (t!"met5.option8 - 72/39", t!"72/39@1"), (t!"nsm.drawing - 61/20", t!"61/20@1"), (t!"pad.drawing - 76/20", t!"76/20@1"),
  (t!"pad.label - 76/5", t!"76/5@1"), (t!"pad.pin - 76/16", t!"76/16@1"), (t!"pnp.drawing - 82/44", t!"82/44@1"),
  (t!"pnp.label - 82/59", t!"82/59@1"), (t!"npn.drawing - 82/20", t!"82/20@1"), (t!"npn.label - 82/5", t!"82/5@1"),
  (t!"rpm.drawing - 86/20", t!"86/20@1"), (t!"hvi.drawing - 75/20", t!"75/20@1"), (t!"capacitor.drawing - 82/64", t!"82/64@1"),
  (t!"ncm.drawing - 92/44", t!"92/44@1"), (t!"cncm.drawing - 96/44", t!"96/44@1"), (t!"cncm.mask - 17/0", t!"17/0@1"),
  (t!"pmm.drawing - 85/44", t!"85/44@1"), (t!"pmm2.drawing - 77/20", t!"77/20@1"), (t!"rdl.drawing - 74/20", t!"74/20@1"),
  (t!"rdl.pin - 74/16", t!"74/16@1"), (t!"rdl.label - 74/5", t!"74/5@1"), (t!"rdl.res - 74/13", t!"74/13@1"),
  (t!"rdl.cut - 74/14", t!"74/14@1"), (t!"rdl.short - 74/15", t!"74/15@1"), (t!"rdl.option1 - 89/32", t!"89/32@1"),
  (t!"rdl.option2 - 89/33", t!"89/33@1"), (t!"rdl.option3 - 89/34", t!"89/34@1"), (t!"rdl.option4 - 89/35", t!"89/35@1"),
  (t!"rdl.option5 - 89/36", t!"89/36@1"), (t!"rdl.option6 - 89/37", t!"89/37@1"), (t!"rdl.option7 - 89/38", t!"89/38@1"),
  (t!"rdl.option8 - 89/39", t!"89/39@1"), (t!"ubm.drawing - 127/21", t!"127/21@1"), (t!"bump.drawing - 127/22", t!"127/22@1"),
  (t!"inductor.drawing - 82/24", t!"82/24@1"), (t!"inductor.label - 82/25", t!"82/25@1"),
  (t!"inductor.term1 - 82/26", t!"82/26@1"), (t!"inductor.term2 - 82/27", t!"82/27@1"),
  (t!"inductor.term3 - 82/28", t!"82/28@1"), (t!"capm.drawing - 89/44", t!"89/44@1"), (t!"capm2.drawing - 97/44", t!"97/44@1"),
  (t!"cfom.drawing - 22/20", t!"22/20@1"), (t!"cfom.mask - 23/0", t!"23/0@1"), (t!"cfom.maskAdd - 22/21", t!"22/21@1"),
  (t!"cfom.maskDrop - 22/22", t!"22/22@1"), (t!"cfom.fill - 23/28", t!"23/28@1"), (t!"cfom.waffleDrop - 22/24", t!"22/24@1"),
  (t!"fom.dummy - 22/23", t!"22/23@1"), (t!"cnwm.drawing - 109/44", t!"109/44@1"), (t!"cnwm.mask - 21/0", t!"21/0@1"),
  (t!"cnwm.maskAdd - 109/43", t!"109/43@1"), (t!"cnwm.maskDrop - 109/42", t!"109/42@1"),
  (t!"cdnm.drawing - 110/20", t!"110/20@1"), (t!"cdnm.mask - 48/0", t!"48/0@1"), (t!"cdnm.maskAdd - 110/21", t!"110/21@1"),
  (t!"cdnm.maskDrop - 110/22", t!"110/22@1"), (t!"clvtnm.drawing - 25/44", t!"25/44@1"), (t!"clvtnm.mask - 25/0", t!"25/0@1"),
  (t!"clvtnm.maskAdd - 25/43", t!"25/43@1"), (t!"clvtnm.maskDrop - 25/42", t!"25/42@1"),
  (t!"chvtpm.drawing - 88/44", t!"88/44@1"), (t!"chvtpm.mask - 97/0", t!"97/0@1"), (t!"chvtpm.maskAdd - 97/43", t!"97/43@1"),
  (t!"chvtpm.maskDrop - 97/42", t!"97/42@1"), (t!"chvtrm.drawing - 98/44", t!"98/44@1"), (t!"chvtrm.mask - 98/0", t!"98/0@1"),
  (t!"chvtrm.maskAdd - 98/43", t!"98/43@1"), (t!"chvtrm.maskDrop - 98/42", t!"98/42@1"),
  (t!"ctunm.drawing - 96/20", t!"96/20@1"), (t!"ctunm.mask - 20/0", t!"20/0@1"), (t!"ctunm.maskAdd - 96/21", t!"96/21@1"),
  (t!"ctunm.maskDrop - 96/22", t!"96/22@1"), (t!"conom.drawing - 87/44", t!"87/44@1"), (t!"conom.mask - 88/0", t!"88/0@1"),
  (t!"conom.maskAdd - 87/43", t!"87/43@1"), (t!"conom.maskDrop - 87/42", t!"87/42@1"), (t!"cnsdm.drawing - 29/20", t!"29/20@1"),
  (t!"cnsdm.mask - 30/0", t!"30/0@1"), (t!"cnsdm.maskAdd - 29/21", t!"29/21@1"), (t!"cnsdm.maskDrop - 29/22", t!"29/22@1"),
  (t!"cpsdm.drawing - 31/20", t!"31/20@1"), (t!"cpsdm.mask - 32/0", t!"32/0@1"), (t!"cpsdm.maskAdd - 31/21", t!"31/21@1"),
  (t!"cpsdm.maskDrop - 31/22", t!"31/22@1"), (t!"cntm.drawing - 26/20", t!"26/20@1"), (t!"cntm.mask - 27/0", t!"27/0@1"),
  (t!"cntm.maskAdd - 26/21", t!"26/21@1"), (t!"cntm.maskDrop - 26/22", t!"26/22@1"), (t!"hvntm.drawing - 125/20", t!"125/20@1"),
  (t!"chvntm.drawing - 38/20", t!"38/20@1"), (t!"chvntm.mask - 39/0", t!"39/0@1"), (t!"chvntm.maskAdd - 38/21", t!"38/21@1"),
  (t!"chvntm.maskDrop - 38/22", t!"38/22@1"), (t!"cldntm.drawing - 11/20", t!"11/20@1"), (t!"cldntm.mask - 11/0", t!"11/0@1"),
  (t!"clvom.drawing - 45/20", t!"45/20@1"), (t!"clvom.mask - 46/0", t!"46/0@1"), (t!"clvom.maskAdd - 45/21", t!"45/21@1"),
  (t!"clvom.maskDrop - 45/22", t!"45/22@1"), (t!"cp1m.drawing - 33/44", t!"33/44@1"), (t!"cp1m.mask - 28/0", t!"28/0@1"),
  (t!"cp1m.maskAdd - 33/43", t!"33/43@1"), (t!"cp1m.maskDrop - 33/42", t!"33/42@1"), (t!"cp1m.fill - 28/28", t!"28/28@1"),
  (t!"cp1m.waffleDrop - 33/24", t!"33/24@1"), (t!"cli1m.drawing - 115/44", t!"115/44@1"), (t!"cli1m.mask - 56/0", t!"56/0@1"),
  (t!"cli1m.maskAdd - 115/43", t!"115/43@1"), (t!"cli1m.maskDrop - 115/42", t!"115/42@1"),
  (t!"cli1m.fill - 56/28", t!"56/28@1"), (t!"clicm1.drawing - 106/44", t!"106/44@1"), (t!"clicm1.mask - 43/0", t!"43/0@1"),
  (t!"clicm1.maskAdd - 106/43", t!"106/43@1"), (t!"clicm1.maskDrop - 106/42", t!"106/42@1"),
  (t!"cmm1.drawing - 62/20", t!"62/20@1"), (t!"cmm1.mask - 36/0", t!"36/0@1"), (t!"cmm1.maskAdd - 62/21", t!"62/21@1"),
  (t!"cmm1.maskDrop - 62/22", t!"62/22@1"), (t!"cmm1.fill - 36/28", t!"36/28@1"), (t!"cmm1.waffleDrop - 62/24", t!"62/24@1"),
  (t!"cviam.drawing - 105/20", t!"105/20@1"), (t!"cviam.mask - 40/0", t!"40/0@1"), (t!"cviam.maskAdd - 105/21", t!"105/21@1"),
  (t!"cviam.maskDrop - 105/22", t!"105/22@1"), (t!"cmm2.drawing - 105/44", t!"105/44@1"), (t!"cmm2.mask - 41/0", t!"41/0@1"),
  (t!"cmm2.maskAdd - 105/43", t!"105/43@1"), (t!"cmm2.maskDrop - 105/42", t!"105/42@1"), (t!"cmm2.fill - 41/28", t!"41/28@1"),
  (t!"cmm2.waffleDrop - 105/52", t!"105/52@1"), (t!"cviam2.drawing - 108/20", t!"108/20@1"),
  (t!"cviam2.mask - 44/0", t!"44/0@1"), (t!"cviam2.maskAdd - 108/21", t!"108/21@1"),
  (t!"cviam2.maskDrop - 108/22", t!"108/22@1"), (t!"cmm3.drawing - 107/20", t!"107/20@1"), (t!"cmm3.mask - 34/0", t!"34/0@1"),
  (t!"cmm3.maskAdd - 107/21", t!"107/21@1"), (t!"cmm3.maskDrop - 107/22", t!"107/22@1"), (t!"cmm3.fill - 34/28", t!"34/28@1"),
  (t!"cmm3.waffleDrop - 107/24", t!"107/24@1"), (t!"cnpc.drawing - 44/20", t!"44/20@1"), (t!"cnpc.mask - 49/0", t!"49/0@1"),
  (t!"cnpc.maskAdd - 44/43", t!"44/43@1"), (t!"cnpc.maskDrop - 44/42", t!"44/42@1"),
  (t!"cviam3.drawing - 112/20", t!"112/20@1"), (t!"cviam3.mask - 50/0", t!"50/0@1"),
  (t!"cviam3.maskAdd - 112/21", t!"112/21@1"), (t!"cviam3.maskDrop - 112/22", t!"112/22@1"), (t!"cnsm.mask - 22/0", t!"22/0@1"),
  (t!"cpdm.drawing - 104/44", t!"104/44@1"), (t!"cpdm.mask - 37/0", t!"37/0@1"), (t!"cpdm.maskAdd - 104/43", t!"104/43@1"),
  (t!"cpdm.maskDrop - 104/42", t!"104/42@1"), (t!"cpmm.drawing - 91/44", t!"91/44@1"), (t!"cpbo.mask - 99/0", t!"99/0@1"),
  (t!"cmm4.mask - 51/0", t!"51/0@1"), (t!"cmm4.maskAdd - 112/43", t!"112/43@1"), (t!"cmm4.maskDrop - 112/42", t!"112/42@1"),
  (t!"cmm4.fill - 51/28", t!"51/28@1"), (t!"cmm4.waffleDrop - 112/4", t!"112/4@1"), (t!"cviam4.drawing - 117/20", t!"117/20@1"),
  (t!"cviam4.mask - 58/0", t!"58/0@1"), (t!"cviam4.maskAdd - 117/21", t!"117/21@1"),
  (t!"cviam4.maskDrop - 117/22", t!"117/22@1"), (t!"cmm5.mask - 59/0", t!"59/0@1"), (t!"cmm5.fill - 59/28", t!"59/28@1"),
  (t!"cmm5.waffleDrop - 117/4", t!"117/4@1"), (t!"target.drawing - 76/44", t!"76/44@1"),
  (t!"cctm1.drawing - 101/44", t!"101/44@1"), (t!"cctm1.mask - 35/0", t!"35/0@1"), (t!"cctm1.maskAdd - 101/43", t!"101/43@1"),
  (t!"cctm1.maskDrop - 101/42", t!"101/42@1"), (t!"crpm.drawing - 53/44", t!"53/44@1"), (t!"crpm.mask - 96/0", t!"96/0@1"),
  (t!"crpm.maskAdd - 53/43", t!"53/43@1"), (t!"crpm.maskDrop - 53/42", t!"53/42@1"), (t!"ccu1m.mask - 93/0", t!"93/0@1"),
  (t!"cpmm2.mask - 94/0", t!"94/0@1"), (t!"cubm.mask - 100/0", t!"100/0@1"), (t!"cbump.mask - 101/0", t!"101/0@1"),
  (t!"overlap.drawing - 90/20", t!"90/20@1"), (t!"overlap.boundary - 90/4", t!"90/4@1"),
  (t!"areaid.lowTapDensity - 81/14", t!"81/14@1"), (t!"areaid.notCritSide - 81/15", t!"81/15@1"),
  (t!"areaid.injection - 81/17", t!"81/17@1"), (t!"areaid.rfdiode - 81/125", t!"81/125@1"),
  (t!"areaid.seal - 81/1", t!"81/1@1"), (t!"areaid.core - 81/2", t!"81/2@1"), (t!"areaid.frame - 81/3", t!"81/3@1"),
  (t!"areaid.esd - 81/19", t!"81/19@1"), (t!"areaid.dieCut - 81/11", t!"81/11@1"), (t!"areaid.moduleCut - 81/10", t!"81/10@1"),
  (t!"areaid.frameRect - 81/12", t!"81/12@1"), (t!"areaid.substrateCut - 81/53", t!"81/53@1"),
  (t!"areaid.diode - 81/23", t!"81/23@1"), (t!"areaid.standardc - 81/4", t!"81/4@1"), (t!"areaid.deadZon - 81/50", t!"81/50@1"),
  (t!"areaid.critCorner - 81/51", t!"81/51@1"), (t!"areaid.critSid - 81/52", t!"81/52@1"),
  (t!"areaid.opcDrop - 81/54", t!"81/54@1"), (t!"areaid.waffleWindow - 81/13", t!"81/13@1"),
  (t!"areaid.extendedDrain - 81/57", t!"81/57@1"), (t!"areaid.lvNative - 81/60", t!"81/60@1"),
  (t!"areaid.photo - 81/81", t!"81/81@1"), (t!"areaid.etest - 81/101", t!"81/101@1"), (t!"areaid.hvnwell - 81/63", t!"81/63@1"),
  (t!"areaid.rdlprobepad - 81/27", t!"81/27@1"), (t!"areaid.sigPadDiff - 81/6", t!"81/6@1"),
  (t!"areaid.sigPadWell - 81/7", t!"81/7@1"), (t!"areaid.sigPadMetNtr - 81/8", t!"81/8@1"),
  (t!"areaid.analog - 81/79", t!"81/79@1"), (t!"prune.drawing - 84/44", t!"84/44@1"),
  (t!"padCenter.drawing - 81/20", t!"81/20@1"), (t!"met1.psa1 - 68/88", t!"68/88@1"), (t!"met2.psa1 - 69/88", t!"69/88@1"),
  (t!"met3.psa1 - 70/88", t!"70/88@1"), (t!"met4.psa1 - 71/88", t!"71/88@1"), (t!"met5.psa1 - 72/88", t!"72/88@1"),
  (t!"met1.psa2 - 68/89", t!"68/89@1"), (t!"met2.psa2 - 69/89", t!"69/89@1"), (t!"met3.psa2 - 70/89", t!"70/89@1"),
  (t!"met4.psa2 - 71/89", t!"71/89@1"), (t!"met5.psa2 - 72/89", t!"72/89@1"), (t!"met1.psa3 - 68/90", t!"68/90@1"),
  (t!"met2.psa3 - 69/90", t!"69/90@1"), (t!"met3.psa3 - 70/90", t!"70/90@1"), (t!"met4.psa3 - 71/90", t!"71/90@1"),
  (t!"met5.psa3 - 72/90", t!"72/90@1"), (t!"met1.psa4 - 68/91", t!"68/91@1"), (t!"met2.psa4 - 69/91", t!"69/91@1"),
  (t!"met3.psa4 - 70/91", t!"70/91@1"), (t!"met4.psa4 - 71/91", t!"71/91@1"), (t!"met5.psa4 - 72/91", t!"72/91@1"),
  (t!"met1.psa5 - 68/92", t!"68/92@1"), (t!"met2.psa5 - 69/92", t!"69/92@1"), (t!"met3.psa5 - 70/92", t!"70/92@1"),
  (t!"met4.psa5 - 71/92", t!"71/92@1"), (t!"met5.psa5 - 72/92", t!"72/92@1"), (t!"met1.psa6 - 68/93", t!"68/93@1"),
  (t!"met2.psa6 - 69/93", t!"69/93@1"), (t!"met3.psa6 - 70/93", t!"70/93@1"), (t!"met4.psa6 - 71/93", t!"71/93@1"),
  (t!"met5.psa6 - 72/93", t!"72/93@1"), (t!"rdl.psa1 - 74/88", t!"74/88@1"), (t!"rdl.psa2 - 74/89", t!"74/89@1"),
  (t!"rdl.psa3 - 74/90", t!"74/90@1"), (t!"rdl.psa4 - 74/91", t!"74/91@1"), (t!"rdl.psa5 - 74/92", t!"74/92@1"),
  (t!"rdl.psa6 - 74/93", t!"74/93@1"), (t!"blanking.drawing - 124/40", t!"124/40@1"), (t!"urpm - 79/20", t!"79/20@1"),
  (t!"text.drawing - 83/44", t!"83/44@1"), (t!"boundary - 235/0", t!"235/0@1"), (t!"boundary - 236/0", t!"236/0@1"),
  (t!"boundary - 235/252", t!"235/252@1"), (t!"boundary - 235/250", t!"235/250@1"), (t!"r1c.drawing - 201/20", t!"201/20@1"),
  (t!"v20.drawing - 74/22", t!"74/22@1")]

/-- pdk/ihp_sg13g2/libs.tech/kpex/sg13g2.lyp, `/layer-properties/properties`: texts of `name` and `source`. -/
noncomputable def sgFile : List (Str × Str) := [
  (t!"Substrate.drawing", t!"40/0"), (t!"Substrate.text", t!"40/25"), (t!"Activ.drawing", t!"1/0"), (t!"Activ.label", t!"1/1"),
  (t!"Activ.pin", t!"1/2"), (t!"Activ.net", t!"1/3"), (t!"Activ.boundary", t!"1/4"), (t!"Activ.lvs", t!"1/19"),
  (t!"Activ.mask", t!"1/20"), (t!"Activ.filler", t!"1/22"), (t!"Activ.nofill", t!"1/23"), (t!"Activ.OPC", t!"1/26"),
  (t!"Activ.iOPC", t!"1/27"), (t!"Activ.noqrc", t!"1/28"), (t!"GatPoly.drawing", t!"5/0"), (t!"GatPoly.label", t!"5/1"),
  (t!"GatPoly.pin", t!"5/2"), (t!"GatPoly.net", t!"5/3"), (t!"GatPoly.boundary", t!"5/4"), (t!"GatPoly.filler", t!"5/22"),
  (t!"GatPoly.nofill", t!"5/23"), (t!"GatPoly.OPC", t!"5/26"), (t!"GatPoly.iOPC", t!"5/27"), (t!"GatPoly.noqrc", t!"5/28"),
  (t!"PolyRes.drawing", t!"128/0"), (t!"PolyRes.label", t!"128/1"), (t!"PolyRes.pin", t!"128/2"), (t!"PolyRes.net", t!"128/3"),
  (t!"PolyRes.boundary", t!"128/4"), (t!"NWell.drawing", t!"31/0"), (t!"NWell.label", t!"31/1"), (t!"NWell.pin", t!"31/2"),
  (t!"NWell.net", t!"31/3"), (t!"NWell.boundary", t!"31/4"), (t!"nBuLay.drawing", t!"32/0"), (t!"nBuLay.label", t!"32/1"),
  (t!"nBuLay.pin", t!"32/2"), (t!"nBuLay.net", t!"32/3"), (t!"nBuLay.boundary", t!"32/4"), (t!"nBuLay.block", t!"32/21"),
  (t!"PWell.block", t!"46/21"), (t!"pSD.drawing", t!"14/0"), (t!"nSD.drawing", t!"7/0"), (t!"nSD.block", t!"7/21"),
  (t!"SalBlock.drawing", t!"28/0"), (t!"ThickGateOx.drawing", t!"44/0"), (t!"Cont.drawing", t!"6/0"), (t!"Cont.net", t!"6/3"),
  (t!"Cont.boundary", t!"6/4"), (t!"Cont.OPC", t!"6/26"), (t!"Metal1.drawing", t!"8/0"), (t!"Metal1.label", t!"8/1"),
  (t!"Metal1.pin", t!"8/2"), (t!"Metal1.net", t!"8/3"), (t!"Metal1.boundary", t!"8/4"), (t!"Metal1.mask", t!"8/20"),
  (t!"Metal1.filler", t!"8/22"), (t!"Metal1.nofill", t!"8/23"), (t!"Metal1.slit", t!"8/24"), (t!"Metal1.text", t!"8/25"),
  (t!"Metal1.OPC", t!"8/26"), (t!"Metal1.noqrc", t!"8/28"), (t!"Metal1.res", t!"8/29"), (t!"Metal1.iprobe", t!"8/33"),
  (t!"Metal1.diffprb", t!"8/34"), (t!"Via1.drawing", t!"19/0"), (t!"Via1.net", t!"19/3"), (t!"Via1.boundary", t!"19/4"),
  (t!"Metal2.drawing", t!"10/0"), (t!"Metal2.label", t!"10/1"), (t!"Metal2.pin", t!"10/2"), (t!"Metal2.net", t!"10/3"),
  (t!"Metal2.boundary", t!"10/4"), (t!"Metal2.mask", t!"10/20"), (t!"Metal2.filler", t!"10/22"), (t!"Metal2.nofill", t!"10/23"),
  (t!"Metal2.slit", t!"10/24"), (t!"Metal2.text", t!"10/25"), (t!"Metal2.OPC", t!"10/26"), (t!"Metal2.noqrc", t!"10/28"),
  (t!"Metal2.res", t!"10/29"), (t!"Metal2.iprobe", t!"10/33"), (t!"Metal2.diffprb", t!"10/34"), (t!"Via2.drawing", t!"29/0"),
  (t!"Via2.net", t!"29/3"), (t!"Via2.boundary", t!"29/4"), (t!"Metal3.drawing", t!"30/0"), (t!"Metal3.label", t!"30/1"),
  (t!"Metal3.pin", t!"30/2"), (t!"Metal3.net", t!"30/3"), (t!"Metal3.boundary", t!"30/4"), (t!"Metal3.mask", t!"30/20"),
  (t!"Metal3.filler", t!"30/22"), (t!"Metal3.nofill", t!"30/23"), (t!"Metal3.slit", t!"30/24"), (t!"Metal3.text", t!"30/25"),
  (t!"Metal3.OPC", t!"30/26"), (t!"Metal3.noqrc", t!"30/28"), (t!"Metal3.res", t!"30/29"), (t!"Metal3.iprobe", t!"30/33"),
  (t!"Metal3.diffprb", t!"30/34"), (t!"MIM.drawing", t!"36/0"), (t!"MIM.net", t!"36/3"), (t!"MIM.boundary", t!"36/4"),
  (t!"Vmim.drawing", t!"129/0"), (t!"Via3.drawing", t!"49/0"), (t!"Via3.net", t!"49/3"), (t!"Via3.boundary", t!"49/4"),
  (t!"Metal4.drawing", t!"50/0"), (t!"Metal4.label", t!"50/1"), (t!"Metal4.pin", t!"50/2"), (t!"Metal4.net", t!"50/3"),
  (t!"Metal4.boundary", t!"50/4"), (t!"Metal4.mask", t!"50/20"), (t!"Metal4.filler", t!"50/22"), (t!"Metal4.nofill", t!"50/23"),
  (t!"Metal4.slit", t!"50/24"), (t!"Metal4.text", t!"50/25"), (t!"Metal4.OPC", t!"50/26"), (t!"Metal4.noqrc", t!"50/28"),
  (t!"Metal4.res", t!"50/29"), (t!"Metal4.iprobe", t!"50/33"), (t!"Metal4.diffprb", t!"50/34"), (t!"Via4.drawing", t!"66/0"),
  (t!"Via4.net", t!"66/3"), (t!"Via4.boundary", t!"66/4"), (t!"Metal5.drawing", t!"67/0"), (t!"Metal5.label", t!"67/1"),
  (t!"Metal5.pin", t!"67/2"), (t!"Metal5.net", t!"67/3"), (t!"Metal5.boundary", t!"67/4"), (t!"Metal5.mask", t!"67/20"),
  (t!"Metal5.filler", t!"67/22"), (t!"Metal5.nofill", t!"67/23"), (t!"Metal5.slit", t!"67/24"), (t!"Metal5.text", t!"67/25"),
  (t!"Metal5.OPC", t!"67/26"), (t!"Metal5.noqrc", t!"67/28"), (t!"Metal5.res", t!"67/29"), (t!"Metal5.iprobe", t!"67/33"),
  (t!"Metal5.diffprb", t!"67/34"), (t!"TopVia1.drawing", t!"125/0"), (t!"TopVia1.net", t!"125/3"),
  (t!"TopVia1.boundary", t!"125/4"), (t!"TopMetal1.drawing", t!"126/0"), (t!"TopMetal1.label", t!"126/1"),
  (t!"TopMetal1.pin", t!"126/2"), (t!"TopMetal1.net", t!"126/3"), (t!"TopMetal1.boundary", t!"126/4"),
  (t!"TopMetal1.mask", t!"126/20"), (t!"TopMetal1.filler", t!"126/22"), (t!"TopMetal1.nofill", t!"126/23"),
  (t!"TopMetal1.slit", t!"126/24"), (t!"TopMetal1.text", t!"126/25"), (t!"TopMetal1.noqrc", t!"126/28"),
  (t!"TopMetal1.res", t!"126/29"), (t!"TopMetal1.iprobe", t!"126/33"), (t!"TopMetal1.diffprb", t!"126/34"),
  (t!"TopVia2.drawing", t!"133/0"), (t!"TopVia2.net", t!"133/3"), (t!"TopVia2.boundary", t!"133/4"),
  (t!"TopMetal2.drawing", t!"134/0"), (t!"TopMetal2.label", t!"134/1"), (t!"TopMetal2.pin", t!"134/2"),
  (t!"TopMetal2.net", t!"134/3"), (t!"TopMetal2.boundary", t!"134/4"), (t!"TopMetal2.mask", t!"134/20"),
  (t!"TopMetal2.filler", t!"134/22"), (t!"TopMetal2.nofill", t!"134/23"), (t!"TopMetal2.slit", t!"134/24"),
  (t!"TopMetal2.text", t!"134/25"), (t!"TopMetal2.noqrc", t!"134/28"), (t!"TopMetal2.res", t!"134/29"),
  (t!"TopMetal2.iprobe", t!"134/33"), (t!"TopMetal2.diffprb", t!"134/34"), (t!"Passiv.drawing", t!"9/0"),
  (t!"Passiv.label", t!"9/1"), (t!"Passiv.pin", t!"9/2"), (t!"Passiv.net", t!"9/3"), (t!"Passiv.boundary", t!"9/4"),
  (t!"Passiv.pillar", t!"9/35"), (t!"Passiv.sbump", t!"9/36"), (t!"Passiv.pdl", t!"9/40"), (t!"NoMetFiller.drawing", t!"160/0"),
  (t!"ThinFilmRes.drawing", t!"146/0"), (t!"IND.drawing", t!"27/0"), (t!"IND.pin", t!"27/2"), (t!"IND.boundary", t!"27/4"),
  (t!"IND.text", t!"27/25"), (t!"EdgeSeal.drawing", t!"39/0"), (t!"EdgeSeal.boundary", t!"39/4"), (t!"dfpad.drawing", t!"41/0"),
  (t!"dfpad.pillar", t!"41/35"), (t!"dfpad.sbump", t!"41/36"), (t!"TEXT.drawing", t!"63/0"), (t!"Recog.drawing", t!"99/0"),
  (t!"Recog.pin", t!"99/2"), (t!"Recog.esd", t!"99/30"), (t!"Recog.diode", t!"99/31"), (t!"Recog.tsv", t!"99/32"),
  (t!"Recog.iprobe", t!"99/33"), (t!"Recog.diffprb", t!"99/34"), (t!"Recog.pillar", t!"99/35"), (t!"Recog.sbump", t!"99/36"),
  (t!"Recog.otp", t!"99/37"), (t!"Recog.pdiode", t!"99/38"), (t!"Recog.mom", t!"99/39"), (t!"Recog.pcm", t!"99/100"),
  (t!"DigiBnd.drawing", t!"16/0"), (t!"DigiBnd.drawing0", t!"16/10"), (t!"RES.drawing", t!"24/0"), (t!"RES.label", t!"24/1"),
  (t!"SRAM.drawing", t!"25/0"), (t!"SRAM.label", t!"25/1"), (t!"SRAM.boundary", t!"25/4"), (t!"TRANS.drawing", t!"26/0"),
  (t!"DigiSub.drawing", t!"60/0"), (t!"HeatTrans.drawing", t!"51/0"), (t!"HeatRes.drawing", t!"52/0"),
  (t!"NoRCX.drawing", t!"148/0"), (t!"NoRCX.m2m3", t!"148/41"), (t!"NoRCX.m2m4", t!"148/42"), (t!"NoRCX.m2m5", t!"148/43"),
  (t!"NoRCX.m2tm1", t!"148/44"), (t!"NoRCX.m2tm2", t!"148/45"), (t!"NoRCX.m3m4", t!"148/46"), (t!"NoRCX.m3m5", t!"148/47"),
  (t!"NoRCX.m3tm1", t!"148/48"), (t!"NoRCX.m3tm2", t!"148/49"), (t!"NoRCX.m4m5", t!"148/50"), (t!"NoRCX.m4tm1", t!"148/51"),
  (t!"NoRCX.m4tm2", t!"148/52"), (t!"NoRCX.m5tm1", t!"148/53"), (t!"NoRCX.m5tm2", t!"148/54"), (t!"NoRCX.tm1tm2", t!"148/55"),
  (t!"NoRCX.m1sub", t!"148/123"), (t!"NoRCX.m2sub", t!"148/124"), (t!"NoRCX.m3sub", t!"148/125"),
  (t!"NoRCX.m4sub", t!"148/126"), (t!"NoRCX.m5sub", t!"148/127"), (t!"NoRCX.tm1sub", t!"148/300"),
  (t!"NoRCX.tm2sub", t!"148/301"), (t!"BiWind.drawing", t!"3/0"), (t!"BiWind.OPC", t!"3/26"), (t!"BasPoly.drawing", t!"13/0"),
  (t!"BasPoly.label", t!"13/1"), (t!"BasPoly.pin", t!"13/2"), (t!"BasPoly.net", t!"13/3"), (t!"BasPoly.boundary", t!"13/4"),
  (t!"EmWind.drawing", t!"33/0"), (t!"EmWind.OPC", t!"33/26"), (t!"DeepCo.drawing", t!"35/0"), (t!"EmPoly.drawing", t!"55/0"),
  (t!"Varicap.drawing", t!"70/0"), (t!"EmWind3.drawing", t!"90/0"), (t!"EmWiHV3.drawing", t!"91/0"),
  (t!"ColOpen.drawing", t!"101/0"), (t!"ColWind.drawing", t!"139/0"), (t!"EmWiHV.drawing", t!"156/0"),
  (t!"DeepVia.drawing", t!"152/0"), (t!"LBE.drawing", t!"157/0"), (t!"BackMetal1.drawing", t!"20/0"),
  (t!"BackMetal1.label", t!"20/1"), (t!"BackMetal1.pin", t!"20/2"), (t!"BackMetal1.net", t!"20/3"),
  (t!"BackMetal1.boundary", t!"20/4"), (t!"BackMetal1.mask", t!"20/20"), (t!"BackMetal1.filler", t!"20/22"),
  (t!"BackMetal1.nofill", t!"20/23"), (t!"BackMetal1.slit", t!"20/24"), (t!"BackMetal1.text", t!"20/25"),
  (t!"BackMetal1.OPC", t!"20/26"), (t!"BackMetal1.noqrc", t!"20/28"), (t!"BackMetal1.res", t!"20/29"),
  (t!"BackMetal1.iprobe", t!"20/33"), (t!"BackMetal1.diffprb", t!"20/34"), (t!"BackPassiv.drawing", t!"23/0"),
  (t!"IntBondVia.drawing", t!"72/0"), (t!"IntBondMet.drawing", t!"73/0"), (t!"DevBondVia.drawing", t!"74/0"),
  (t!"DevBondMet.drawing", t!"75/0"), (t!"DevTrench.drawing", t!"76/0"), (t!"Redist.drawing", t!"77/0"),
  (t!"FBE.drawing", t!"54/0"), (t!"AntVia1.drawing", t!"83/0"), (t!"AntMetal2.drawing", t!"84/0"),
  (t!"AntMetal1.drawing", t!"132/0"), (t!"FLM.drawing", t!"142/0"), (t!"SNSRing.drawing", t!"135/0"),
  (t!"Sensor.drawing", t!"136/0"), (t!"SNSArms.drawing", t!"137/0"), (t!"SNSCMOSVia.drawing", t!"138/0"),
  (t!"SNSBotVia.drawing", t!"149/0"), (t!"SNSTopVia.drawing", t!"151/0"), (t!"NLDB.drawing", t!"15/0"),
  (t!"PLDB.drawing", t!"45/0"), (t!"RedBuLay.drawing", t!"92/0"), (t!"NLDD.drawing", t!"112/0"), (t!"PLDD.drawing", t!"113/0"),
  (t!"NExt.drawing", t!"114/0"), (t!"PExt.drawing", t!"115/0"), (t!"INLDPWL.drawing", t!"127/0"),
  (t!"nBuLayCut.drawing", t!"131/0"), (t!"GraphBot.drawing", t!"78/0"), (t!"GraphTop.drawing", t!"79/0"),
  (t!"GraphCont.drawing", t!"85/0"), (t!"SiWG.drawing", t!"86/0"), (t!"SiWG.filler", t!"86/22"), (t!"SiWG.nofill", t!"86/23"),
  (t!"SiGrating.drawing", t!"87/0"), (t!"SiNGrating.drawing", t!"88/0"), (t!"GraphPas.drawing", t!"89/0"),
  (t!"GraphPad.drawing", t!"97/0"), (t!"GraphMetal1.drawing", t!"109/0"), (t!"GraphMetal1.filler", t!"109/22"),
  (t!"GraphMetal1.nofill", t!"109/23"), (t!"GraphMetal1.slit", t!"109/24"), (t!"GraphMetal1.OPC", t!"109/26"),
  (t!"GraphMet1L.drawing", t!"110/0"), (t!"GraphMet1L.filler", t!"110/22"), (t!"GraphMet1L.nofill", t!"110/23"),
  (t!"GraphMet1L.slit", t!"110/24"), (t!"GraphMet1L.OPC", t!"110/26"), (t!"GraphGate.drawing", t!"118/0"),
  (t!"SiNWG.drawing", t!"119/0"), (t!"SiNWG.filler", t!"119/22"), (t!"SiNWG.nofill", t!"119/23"), (t!"PWell.drawing", t!"46/0"),
  (t!"PWell.label", t!"46/1"), (t!"PWell.pin", t!"46/2"), (t!"PWell.net", t!"46/3"), (t!"PWell.boundary", t!"46/4"),
  (t!"IC.drawing", t!"48/0"), (t!"NoDRC.drawing", t!"62/0"), (t!"RadHard.drawing", t!"68/0"), (t!"MemCap.drawing", t!"69/0"),
  (t!"SMOS.drawing", t!"93/0"), (t!"Polimide.drawing", t!"98/0"), (t!"Polimide.label", t!"98/1"), (t!"Polimide.pin", t!"98/2"),
  (t!"Polimide.net", t!"98/3"), (t!"EXTBlock.drawing", t!"111/0"), (t!"NExtHV.drawing", t!"116/0"),
  (t!"PExtHV.drawing", t!"117/0"), (t!"MEMPAD.drawing", t!"124/0"), (t!"HafniumOx.drawing", t!"143/0"),
  (t!"MEMVia.drawing", t!"145/0"), (t!"RFMEM.drawing", t!"147/0"), (t!"FGEtch.drawing", t!"153/0"),
  (t!"CtrGat.drawing", t!"154/0"), (t!"FGImp.drawing", t!"155/0"), (t!"AlCuStop.drawing", t!"159/0"),
  (t!"prBoundary.drawing", t!"189/0"), (t!"prBoundary.label", t!"189/1"), (t!"prBoundary.boundary", t!"189/4"),
  (t!"Exchange0.drawing", t!"190/0"), (t!"Exchange0.label", t!"190/1"), (t!"Exchange0.pin", t!"190/2"),
  (t!"Exchange0.text", t!"190/25"), (t!"Exchange1.drawing", t!"191/0"), (t!"Exchange1.label", t!"191/1"),
  (t!"Exchange1.pin", t!"191/2"), (t!"Exchange1.text", t!"191/25"), (t!"Exchange2.drawing", t!"192/0"),
  (t!"Exchange2.label", t!"192/1"), (t!"Exchange2.pin", t!"192/2"), (t!"Exchange2.text", t!"192/25"),
  (t!"Exchange3.drawing", t!"193/0"), (t!"Exchange3.label", t!"193/1"), (t!"Exchange3.pin", t!"193/2"),
  (t!"Exchange3.text", t!"193/25"), (t!"Exchange4.drawing", t!"194/0"), (t!"Exchange4.label", t!"194/1"),
  (t!"Exchange4.pin", t!"194/2"), (t!"Exchange4.text", t!"194/25"), (t!"isoNWell.drawing", t!"257/0")]

/-- `parse_layers`, convert_layout_pdk.py 254–291, for a list of entries. -/
def parseLayers (es : List (Str × Str)) : List Layer := es.map fun e => parseLayer e.1 e.2

end Verif.LayerMap
