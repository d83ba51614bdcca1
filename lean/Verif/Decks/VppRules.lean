import Verif.Decks.Emitters

/-!
# The selections of capacitors between fingers of sky130A

Generated by tools/gen_vpp.py from pdk/sky130A/libs.tech/kpex/sky130.lvs. Lengths are in nanometres.
-/

namespace Verif.Decks.Vpp

/-- What a selection asks for besides the edges: shapes of a layer that touch the marker, holes of a layer inside of it, and shapes of met5
that touch it and cover a marker or cover none. -/
inductive Cond where
  | poly | li | met3 | met4 | met5 | liHole | met1Hole | met4Hole | met5Over | met5Beside
deriving DecidableEq

/-- A selection: the ranges of the edges that it asks for, and the conditions. -/
structure Rule where
  name : String
  edges : List Limits
  conds : List (Cond × Bool)

/-- sky130.lvs 1383. -/
def «vpp_1_43» : Limits := ⟨1420, 1440⟩

/-- sky130.lvs 1384. -/
def «vpp_2_08» : Limits := ⟨2070, 2090⟩

/-- sky130.lvs 1385. -/
def «vpp_2_36» : Limits := ⟨2350, 2370⟩

/-- sky130.lvs 1386. -/
def «vpp_2_51» : Limits := ⟨2500, 2520⟩

/-- sky130.lvs 1387. -/
def «vpp_4_04» : Limits := ⟨4030, 4050⟩

/-- sky130.lvs 1388. -/
def «vpp_4_25» : Limits := ⟨4240, 4260⟩

/-- sky130.lvs 1389. -/
def «vpp_4_38» : Limits := ⟨4370, 4390⟩

/-- sky130.lvs 1390. -/
def «vpp_4_59» : Limits := ⟨4580, 4600⟩

/-- sky130.lvs 1391. -/
def «vpp_5_49» : Limits := ⟨5480, 5500⟩

/-- sky130.lvs 1392. -/
def «vpp_5_75» : Limits := ⟨5740, 5760⟩

/-- sky130.lvs 1393. -/
def «vpp_5_76» : Limits := ⟨5750, 5770⟩

/-- sky130.lvs 1394. -/
def «vpp_6_46» : Limits := ⟨6450, 6470⟩

/-- sky130.lvs 1395. -/
def «vpp_7_50» : Limits := ⟨7490, 7510⟩

/-- sky130.lvs 1396. -/
def «vpp_7_84» : Limits := ⟨7830, 7850⟩

/-- sky130.lvs 1397. -/
def «vpp_8_24» : Limits := ⟨8230, 8250⟩

/-- sky130.lvs 1398. -/
def «vpp_8_58» : Limits := ⟨8570, 8590⟩

/-- sky130.lvs 1399. -/
def «vpp_10_40» : Limits := ⟨10390, 10410⟩

/-- sky130.lvs 1400. -/
def «vpp_10_76» : Limits := ⟨10750, 10770⟩

/-- sky130.lvs 1401. -/
def «vpp_10_99» : Limits := ⟨10980, 11000⟩

/-- sky130.lvs 1402. -/
def «vpp_11_07» : Limits := ⟨11060, 11080⟩

/-- sky130.lvs 1403. -/
def «vpp_11_17» : Limits := ⟨11160, 11180⟩

/-- sky130.lvs 1404. -/
def «vpp_11_27» : Limits := ⟨11260, 11280⟩

/-- sky130.lvs 1405. -/
def «vpp_11_35» : Limits := ⟨11340, 11360⟩

/-- sky130.lvs 1406. -/
def «vpp_11_53» : Limits := ⟨11520, 11540⟩

/-- sky130.lvs 1407. -/
def «vpp_20_76» : Limits := ⟨20750, 20770⟩

/-- sky130.lvs 1408. -/
def «vpp_22_27» : Limits := ⟨22260, 22280⟩

/-- sky130.lvs 1409. -/
def «vpp_22_63» : Limits := ⟨22620, 22640⟩

/-- sky130.lvs 1410. -/
def «vpp_33_31» : Limits := ⟨33300, 33320⟩

/-- sky130.lvs 1411. -/
def «vpp_40_76» : Limits := ⟨40750, 40770⟩

/-- sky130.lvs 1412. -/
def «vpp_44_33» : Limits := ⟨44320, 44340⟩

/-- sky130.lvs 1413. -/
def «vpp_55_39» : Limits := ⟨55380, 55400⟩

/-- sky130.lvs 1414. -/
def «vpp_55_45» : Limits := ⟨55440, 55460⟩

/-- sky130.lvs 1415. -/
def «vpp_55_47» : Limits := ⟨55460, 55480⟩

/-- sky130.lvs 1442. -/
def «vpp_04p4x04p6» : List Limits := [«vpp_4_04», «vpp_4_25»]

/-- sky130.lvs 1443. -/
def «vpp_06p8x06p1» : List Limits := [«vpp_6_46», «vpp_5_75»]

/-- sky130.lvs 1444. -/
def «vpp_08p6x07p8» : List Limits := [«vpp_8_24», «vpp_7_50»]

/-- sky130.lvs 1445. -/
def «vpp_11p5x11p7» : List Limits := [«vpp_11_07», «vpp_11_35»]

/-- sky130.lvs 1451. -/
def «vpp_m1m2» : List (Cond × Bool) := [(.poly, false), (.li, false), (.met3, false), (.met4, false), (.met5, false)]

/-- sky130.lvs 1452. -/
def «vpp_m1m2m3» : List (Cond × Bool) := [(.poly, false), (.li, false), (.met3, true), (.met4, false), (.met5, false)]

/-- sky130.lvs 1453. -/
def «vpp_m1m2m3m4» : List (Cond × Bool) := [(.poly, false), (.li, false), (.met3, true), (.met4, true), (.met5, false)]

/-- sky130.lvs 1454. -/
def «vpp_m1m2m3m4m5» : List (Cond × Bool) := [(.poly, false), (.li, false), (.met3, true), (.met4, true), (.met5, true)]

/-- sky130.lvs 1455. -/
def «vpp_l1m1m2» : List (Cond × Bool) := [(.poly, false), (.li, true), (.met3, false), (.met4, false), (.met5, false)]

/-- sky130.lvs 1456. -/
def «vpp_l1m1m2m3» : List (Cond × Bool) := [(.poly, false), (.li, true), (.met3, true), (.met4, false), (.met5, false)]

/-- sky130.lvs 1457. -/
def «vpp_l1m1m2m3m4» : List (Cond × Bool) := [(.poly, false), (.li, true), (.met3, true), (.met4, true), (.met5, false)]

/-- sky130.lvs 1458. -/
def «vpp_l1m1m2m3m4m5» : List (Cond × Bool) := [(.poly, false), (.li, true), (.met3, true), (.met4, true), (.met5, true)]

/-- sky130.lvs 1459. -/
def «vpp_pol1m1m2m3» : List (Cond × Bool) := [(.poly, true), (.li, true), (.met3, true), (.met4, false), (.met5, false)]

/-- sky130.lvs 1460. -/
def «vpp_pol1m1m2m3m4» : List (Cond × Bool) := [(.poly, true), (.li, true), (.met3, true), (.met4, true), (.met5, false)]

/-- sky130.lvs 1461. -/
def «vpp_pol1m1m2m3m4m5» : List (Cond × Bool) := [(.poly, true), (.li, true), (.met3, true), (.met4, true), (.met5, true)]

/-- The selections that are the markers of devices; sky130.lvs 1468–1639, with the devices in 2295–2524. -/
def rules : List Rule :=
  [⟨"vpp_02p4x04p6_m1m2_noshield", [«vpp_2_08», «vpp_4_25»], []⟩,
    ⟨"vpp_02p7x06p1_m1m2m3m4_shieldl1_fingercap", [«vpp_2_36», «vpp_5_76»], []⟩,
    ⟨"vpp_02p7x11p1_m1m2m3m4_shieldl1_fingercap", [«vpp_2_36», «vpp_10_76»], []⟩,
    ⟨"vpp_02p7x21p1_m1m2m3m4_shieldl1_fingercap", [«vpp_2_36», «vpp_20_76»], []⟩,
    ⟨"vpp_02p7x41p1_m1m2m3m4_shieldl1_fingercap", [«vpp_2_36», «vpp_40_76»], []⟩,
    ⟨"vpp_02p9x06p1_m1m2m3m4_shieldl1_fingercap2", [«vpp_2_51», «vpp_5_76»], []⟩,
    ⟨"vpp_03p9x03p9_m1m2_shieldl1_floatm3", [«vpp_1_43», «vpp_1_43»], []⟩,
    ⟨"vpp_04p4x04p6_l1m1m2_noshield", «vpp_04p4x04p6», «vpp_l1m1m2» ++ [(.liHole, true)]⟩,
    ⟨"vpp_04p4x04p6_l1m1m2_noshield_o2subcell", [«vpp_4_38», «vpp_4_59»], «vpp_l1m1m2»⟩,
    ⟨"vpp_04p4x04p6_l1m1m2_shieldpo_floatm3", «vpp_04p4x04p6», «vpp_pol1m1m2m3»⟩,
    ⟨"vpp_04p4x04p6_m1m2m3_shieldl1", «vpp_04p4x04p6», «vpp_l1m1m2m3»⟩,
    ⟨"vpp_04p4x04p6_m1m2m3_shieldl1m5_floatm4", «vpp_04p4x04p6», «vpp_l1m1m2m3m4m5»⟩,
    ⟨"vpp_04p4x04p6_m1m2_noshield", «vpp_04p4x04p6», «vpp_m1m2» ++ [(.met1Hole, true)]⟩,
    ⟨"vpp_04p4x04p6_m1m2_noshield_o2", «vpp_04p4x04p6», «vpp_m1m2» ++ [(.met1Hole, false)]⟩,
    ⟨"vpp_04p4x04p6_m1m2_shieldl1", «vpp_04p4x04p6», «vpp_l1m1m2» ++ [(.liHole, false)]⟩,
    ⟨"vpp_05p9x05p9_m1m2m3m4_shieldl1_wafflecap", [«vpp_5_49», «vpp_5_49»], []⟩,
    ⟨"vpp_06p8x06p1_l1m1m2m3_shieldpom4", «vpp_06p8x06p1», «vpp_pol1m1m2m3m4»⟩,
    ⟨"vpp_06p8x06p1_m1m2m3_shieldl1m4", «vpp_06p8x06p1», «vpp_l1m1m2m3m4»⟩,
    ⟨"vpp_08p6x07p8_l1m1m2_noshield", «vpp_08p6x07p8», «vpp_l1m1m2» ++ [(.liHole, true)]⟩,
    ⟨"vpp_08p6x07p8_l1m1m2_noshield_o2subcell", [«vpp_7_84», «vpp_8_58»], «vpp_l1m1m2»⟩,
    ⟨"vpp_08p6x07p8_l1m1m2_shieldpo_floatm3", «vpp_08p6x07p8», «vpp_pol1m1m2m3»⟩,
    ⟨"vpp_08p6x07p8_m1m2m3_shieldl1", «vpp_08p6x07p8», «vpp_l1m1m2m3»⟩,
    ⟨"vpp_08p6x07p8_m1m2m3_shieldl1m5_floatm4", «vpp_08p6x07p8», «vpp_l1m1m2m3m4m5»⟩,
    ⟨"vpp_08p6x07p8_m1m2_noshield", «vpp_08p6x07p8», «vpp_m1m2»⟩,
    ⟨"vpp_08p6x07p8_m1m2_shieldl1", «vpp_08p6x07p8», «vpp_l1m1m2» ++ [(.liHole, false)]⟩,
    ⟨"vpp_11p3x11p3_m1m2m3m4_shieldl1_wafflecap", [«vpp_10_99», «vpp_10_99»], []⟩,
    ⟨"vpp_11p3x11p8_l1m1m2m3m4_shieldm5_nhv", [«vpp_10_40», «vpp_11_53»], []⟩,
    ⟨"vpp_11p5x11p7_l1m1m2m3m4_shieldm5", «vpp_11p5x11p7», «vpp_l1m1m2m3m4m5» ++ [(.liHole, true), (.met4Hole, true)]⟩,
    ⟨"vpp_11p5x11p7_l1m1m2m3m4_shieldpom5", «vpp_11p5x11p7», «vpp_pol1m1m2m3m4m5» ++ [(.met5Over, true)]⟩,
    ⟨"vpp_11p5x11p7_l1m1m2m3m4_shieldpom5_x", «vpp_11p5x11p7», «vpp_pol1m1m2m3m4m5» ++ [(.met5Beside, true)]⟩,
    ⟨"vpp_11p5x11p7_l1m1m2m3_shieldm4", «vpp_11p5x11p7», «vpp_l1m1m2m3m4»⟩,
    ⟨"vpp_11p5x11p7_l1m1m2m3_shieldpom4", «vpp_11p5x11p7», «vpp_pol1m1m2m3m4»⟩,
    ⟨"vpp_11p5x11p7_l1m1m2_noshield", «vpp_11p5x11p7», «vpp_l1m1m2» ++ [(.liHole, true)]⟩,
    ⟨"vpp_11p5x11p7_l1m1m2_shieldpom3", «vpp_11p5x11p7», «vpp_pol1m1m2m3»⟩,
    ⟨"vpp_11p5x11p7_m1m2m3m4_shieldl1m5", «vpp_11p5x11p7», «vpp_l1m1m2m3m4m5» ++ [(.liHole, false), (.met4Hole, true)]⟩,
    ⟨"vpp_11p5x11p7_m1m2m3m4_shieldm5", «vpp_11p5x11p7», «vpp_m1m2m3m4m5»⟩,
    ⟨"vpp_11p5x11p7_m1m2m3_shieldl1", «vpp_11p5x11p7», «vpp_l1m1m2m3»⟩,
    ⟨"vpp_11p5x11p7_m1m2m3_shieldl1m5_floatm4", «vpp_11p5x11p7», «vpp_l1m1m2m3m4m5» ++ [(.met4Hole, false)]⟩,
    ⟨"vpp_11p5x11p7_m1m2_noshield", «vpp_11p5x11p7», «vpp_m1m2»⟩,
    ⟨"vpp_11p5x11p7_m1m2_shieldl1", «vpp_11p5x11p7», «vpp_l1m1m2» ++ [(.liHole, false)]⟩,
    ⟨"vpp_11p5x11p7_m1m4_noshield", «vpp_11p5x11p7», «vpp_m1m2m3m4»⟩,
    ⟨"vpp_11p5x11p7_pol1m1m2m3m4m5_noshield", [«vpp_11_17», «vpp_11_27»], []⟩,
    ⟨"vpp_11p5x23p1_pol1m1m2m3m4m5_noshield", [«vpp_11_17», «vpp_22_63»], []⟩,
    ⟨"vpp_22p5x11p7_pol1m1m2m3m4m5_noshield", [«vpp_22_27», «vpp_11_27»], []⟩,
    ⟨"vpp_22p5x23p1_pol1m1m2m3m4m5_noshield", [«vpp_22_27», «vpp_22_63»], []⟩,
    ⟨"vpp_33p6x11p7_pol1m1m2m3m4m5_noshield", [«vpp_33_31», «vpp_11_27»], []⟩,
    ⟨"vpp_33p6x23p1_pol1m1m2m3m4m5_noshield", [«vpp_33_31», «vpp_22_63»], []⟩,
    ⟨"vpp_44p7x11p7_pol1m1m2m3m4m5_noshield", [«vpp_44_33», «vpp_11_27»], []⟩,
    ⟨"vpp_44p7x23p1_pol1m1m2m3m4m5_noshield", [«vpp_44_33», «vpp_22_63»], []⟩,
    ⟨"vpp_55p8x11p7_pol1m1m2m3m4m5_noshield", [«vpp_55_45», «vpp_11_27»], []⟩,
    ⟨"vpp_55p8x11p7_pol1m1m2m3m4m5_noshield_m5pullin", [«vpp_55_47», «vpp_11_27»], []⟩,
    ⟨"vpp_55p8x23p1_pol1m1m2m3m4m5_noshield", [«vpp_55_45», «vpp_22_63»], []⟩,
    ⟨"vpp_55p8x23p1_pol1m1m2m3m4m5_noshield_m5pullin", [«vpp_55_47», «vpp_22_63»], []⟩,
    ⟨"vpp_55p8x23p1_pol1m1m2m3m4m5_noshield_test", [«vpp_55_39», «vpp_22_63»], []⟩]

end Verif.Decks.Vpp
