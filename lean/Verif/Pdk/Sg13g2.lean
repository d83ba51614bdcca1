import Verif.Pdk.Model

/-!
# The technology definition of ihp_sg13g2

Translated by `tools/gen_pdk.py` from `cxx/gen_tech_pb/pdk/ihp_sg13g2.cpp`, call by call. The numbers at the ends of the
lines are the lines of the source.
-/

namespace Verif.Pdk.Sg13g2

/-- `buildLayers`; pdk/ihp_sg13g2.cpp 52–74. -/
def buildLayers : List LayerInfo := [
  addLayer .diff "Activ" 1 0 1 2 (-1) (-1), -- 54
  addLayer .nwell "NWell" 31 0 31 2 (-1) (-1), -- 55
  addLayer .pwell "PWell" 46 0 46 2 (-1) (-1), -- 56
  addLayer .nImplant "nSD" 7 0 (-1) (-1) (-1) (-1), -- 57
  addLayer .pImplant "pSD" 14 0 (-1) (-1) (-1) (-1), -- 58
  addLayer .metal "GatPoly" 5 0 5 2 5 25, -- 59
  addLayer .contact "Cont" 6 0 (-1) (-1) (-1) (-1), -- 60
  addLayer .metal "Metal1" 8 0 8 2 8 25, -- 61
  addLayer .via "Via1" 19 0 (-1) (-1) (-1) (-1), -- 62
  addLayer .metal "Metal2" 10 0 10 2 10 25, -- 63
  addLayer .via "Via2" 29 0 (-1) (-1) (-1) (-1), -- 64
  addLayer .metal "Metal3" 30 0 30 2 30 25, -- 65
  addLayer .via "Via3" 49 0 (-1) (-1) (-1) (-1), -- 66
  addLayer .metal "Metal4" 50 0 50 2 50 25, -- 67
  addLayer .via "Via4" 66 0 (-1) (-1) (-1) (-1), -- 68
  addLayer .metal "Metal5" 67 0 67 2 67 25, -- 69
  addLayer .via "TopVia1" 125 0 (-1) (-1) (-1) (-1), -- 70
  addLayer .metal "TopMetal1" 126 0 126 2 126 25, -- 71
  addLayer .via "TopVia2" 133 0 (-1) (-1) (-1) (-1), -- 72
  addLayer .metal "TopMetal2" 134 0 134 2 134 25] -- 73

/-- `buildLVSComputedLayers`; pdk/ihp_sg13g2.cpp 76–138. -/
def buildLVSComputedLayers : List ComputedLayer := [
  addComputedLayer .pwell .regular "pwell" 46 0 "PWell", -- 84
  addComputedLayer .pwell .regular "pwell_sub" 46 0 "PWell", -- 85
  addComputedLayer .nwell .regular "nwell_drw" 31 0 "NWell", -- 86
  addComputedLayer .nImplant .regular "nsd_fet" 7 0 "nSD", -- 87
  addComputedLayer .pImplant .regular "psd_fet" 14 0 "pSD", -- 88
  addComputedLayer .ntap .regular "ntap" 65 144 "Activ", -- 89
  addComputedLayer .ptap .regular "ptap" 65 244 "Activ", -- 90
  addComputedLayer .metal .regular "poly_con" 5 0 "GatPoly", -- 92
  addComputedLayer .metal .regular "metal1_con" 8 0 "Metal1", -- 93
  addComputedLayer .metal .regular "metal2_con" 10 0 "Metal2", -- 94
  addComputedLayer .metal .regular "metal3_con" 30 0 "Metal3", -- 95
  addComputedLayer .metal .regular "metal4_con" 50 0 "Metal4", -- 96
  addComputedLayer .metal .regular "metal5_n_cap" 67 200 "Metal5", -- 97
  addComputedLayer .metal .regular "topmetal1_con" 126 0 "TopMetal1", -- 98
  addComputedLayer .metal .regular "topmetal2_con" 134 0 "TopMetal2", -- 99
  addComputedLayer .contact .regular "cont_nsd_con" 6 4401 "Cont", -- 101
  addComputedLayer .contact .regular "cont_psd_con" 6 4402 "Cont", -- 102
  addComputedLayer .contact .regular "cont_poly_con" 6 4403 "Cont", -- 103
  addComputedLayer .via .regular "via1_drw" 19 0 "Via1", -- 105
  addComputedLayer .via .regular "via2_drw" 29 0 "Via2", -- 106
  addComputedLayer .via .regular "via3_drw" 49 0 "Via3", -- 107
  addComputedLayer .via .regular "via4_drw" 66 0 "Via4", -- 108
  addComputedLayer .via .regular "topvia1_n_cap" 125 200 "TopVia1", -- 110
  addComputedLayer .via .regular "topvia2_drw" 133 0 "TopVia2", -- 111
  addComputedLayer .via .deviceCapacitor "mim_via" 125 10 "TopVia1", -- 113
  addComputedLayer .mimCap .deviceCapacitor "metal5_cap" 67 100 "Metal5", -- 114
  addComputedLayer .mimCap .deviceCapacitor "cmim_top" 36 0 "<TODO>", -- 115
  addComputedLayer .metal .pin "poly_pin_con" 5 2 "GatPoly.pin", -- 121
  addComputedLayer .metal .pin "metal1_pin_con" 8 2 "Metal1.pin", -- 122
  addComputedLayer .metal .pin "metal2_pin_con" 10 2 "Metal2.pin", -- 123
  addComputedLayer .metal .pin "metal3_pin_con" 30 2 "Metal3.pin", -- 124
  addComputedLayer .metal .pin "metal4_pin_con" 50 2 "Metal4.pin", -- 125
  addComputedLayer .metal .pin "metal5_pin_con" 67 2 "Metal5.pin", -- 126
  addComputedLayer .metal .pin "topmetal1_pin_con" 126 2 "TopMetal1.pin", -- 127
  addComputedLayer .metal .pin "topmetal2_pin_con" 134 2 "TopMetal2.pin", -- 128
  addComputedLayer .metal .label "poly_text" 5 25 "GatPoly.text", -- 130
  addComputedLayer .metal .label "metal1_text" 8 25 "Metal1.text", -- 131
  addComputedLayer .metal .label "metal2_text" 10 25 "Metal2.text", -- 132
  addComputedLayer .metal .label "metal3_text" 30 25 "Metal3.text", -- 133
  addComputedLayer .metal .label "metal4_text" 50 25 "Metal4.text", -- 134
  addComputedLayer .metal .label "metal5_text" 67 25 "Metal5.text", -- 135
  addComputedLayer .metal .label "topmetal1_text" 126 25 "TopMetal1.text", -- 136
  addComputedLayer .metal .label "topmetal2_text" 134 25 "TopMetal2.text"] -- 137

/-- `buildProcessStackInfo`; pdk/ihp_sg13g2.cpp 140–333. The pointers to the contacts are resolved. -/
def buildProcessStackInfo : List StackLayer :=
  let capild_k : ℚ := 6.7 -- 158
  let capild_thickness : ℚ := 0.04 -- 159
  let poly_z : ℚ := 0.4 -- 161
  let poly_thickness : ℚ := 0.16 -- 163
  let met1_thickness : ℚ := 0.42 -- 164
  let met2_thickness : ℚ := 0.36 -- 165
  let met3_thickness : ℚ := 0.49 -- 166
  let met4_thickness : ℚ := 0.49 -- 167
  let met5_thickness : ℚ := 0.49 -- 168
  let cmim_cap_thickness : ℚ := 0.15 -- 169
  let topmet1_thickness : ℚ := 2.0 -- 170
  let topmet2_thickness : ℚ := 3.0 -- 171
  let conp_thickness : ℚ := 0.64 - poly_thickness -- 173
  let via1_thickness : ℚ := 0.54 -- 174
  let via2_thickness : ℚ := 0.54 -- 175
  let via3_thickness : ℚ := 0.54 -- 176
  let via4_thickness : ℚ := 0.54 -- 177
  let topvia1_ncap_thickness : ℚ := 0.85 -- 178
  let mim_via_thickness : ℚ := topvia1_ncap_thickness - capild_thickness - cmim_cap_thickness -- 179
  let topvia2_thickness : ℚ := 2.8 -- 180
  let met1_z : ℚ := poly_z + poly_thickness + conp_thickness -- 182
  let met2_z : ℚ := met1_z + met1_thickness + via1_thickness -- 183
  let met3_z : ℚ := met2_z + met2_thickness + via2_thickness -- 184
  let met4_z : ℚ := met3_z + met3_thickness + via3_thickness -- 185
  let met5_z : ℚ := met4_z + met4_thickness + via4_thickness -- 186
  let cmim_z : ℚ := met5_z + met5_thickness + capild_thickness -- 187
  let topmet1_z : ℚ := met5_z + met5_thickness + topvia1_ncap_thickness -- 188
  let topmet2_z : ℚ := topmet1_z + topmet1_thickness + topvia2_thickness -- 189
  [
  addSubstrateLayer "subs" 0.0 0.28 "fox", -- 144
  addNWellLayer "ntap" 0.0 "fox", -- 149
  addDiffusionLayer "nSD" 0.0 "fox"
    (some (setContact "cont_nsd_con" "nsd_fet" "metal1_con" (0.4 + 0.64) 0.16 0.18 0.0)), -- 151, 307
  addDiffusionLayer "pSD" 0.0 "fox"
    (some (setContact "cont_psd_con" "psd_fet" "metal1_con" (0.4 + 0.64) 0.16 0.18 0.0)), -- 152, 308
  addFieldOxideLayer "fox" 3.95, -- 156
  addMetalLayer "GatPoly" poly_z poly_thickness
    (some (setContact "cont_poly_con" "poly_con" "metal1_con" conp_thickness 0.16 0.18 0.0)), -- 193, 309
  addConformalDielectric "nitride" 6.5 0.05 0.05 0.05 "GatPoly", -- 199
  addSimpleDielectric "ild0" 4.1 "fox", -- 203
  addMetalLayer "Metal1" met1_z met1_thickness
    (some (setContact "via1_drw" "metal1_con" "metal2_con" via1_thickness 0.19 0.22 0.0)), -- 207, 310
  addSimpleDielectric "ild1" 4.1 "ild0", -- 211
  addMetalLayer "Metal2" met2_z met2_thickness
    (some (setContact "via2_drw" "metal2_con" "metal3_con" via1_thickness 0.19 0.22 0.0)), -- 215, 311
  addSimpleDielectric "ild2" 4.1 "ild1", -- 219
  addMetalLayer "Metal3" met3_z met3_thickness
    (some (setContact "via3_drw" "metal3_con" "metal4_con" via1_thickness 0.19 0.22 0.0)), -- 223, 312
  addSimpleDielectric "ild3" 4.1 "ild2", -- 227
  addMetalLayer "Metal4" met4_z met4_thickness
    (some (setContact "via4_drw" "metal4_con" "metal5_n_cap" via1_thickness 0.19 0.22 0.0)), -- 231, 313
  addSimpleDielectric "ild4" 4.1 "ild3", -- 235
  addMetalLayer "metal5_n_cap" met5_z met5_thickness
    (some (setContact "topvia1_n_cap" "metal5_n_cap" "topmetal1_con" topvia1_ncap_thickness 0.42 0.42 0.005)), -- 239, 314
  addSimpleDielectric "ildtm1" 4.1 "ild4", -- 243
  addMetalLayer "metal5_cap" met5_z met5_thickness, -- 247
  addConformalDielectric "ismim" capild_k capild_thickness 0.0 0.0 "metal5_cap", -- 252
  addSimpleDielectric "ildtm1" 4.1 "ild4", -- 256
  addMetalLayer "cmim_top" cmim_z cmim_cap_thickness
    (some (setContact "mim_via" "cmim_top" "topmetal1_con" mim_via_thickness 0.42 0.42 0.005)), -- 260, 315
  addSimpleDielectric "ildtm1" 4.1 "ild4", -- 264
  addMetalLayer "TopMetal1" topmet1_z topmet1_thickness
    (some (setContact "topvia2_drw" "topmetal1_con" "topmetal2_con" topvia2_thickness 0.9 1.06 0.5)), -- 268, 316
  addSimpleDielectric "ildtm2" 4.1 "ildtm1", -- 272
  addMetalLayer "TopMetal2" topmet2_z topmet2_thickness, -- 276
  addConformalDielectric "pass1" 4.1 1.5 1.5 0.3 "TopMetal2", -- 281
  addConformalDielectric "pass2" 6.6 0.4 0.4 0.3 "pass1", -- 286
  addSimpleDielectric "air" 1.0 "pass2"] -- 290

/-- The calls of `addLayerResistance` in `buildProcessParasiticsInfo`; pdk/ihp_sg13g2.cpp 344–351. -/
def layerResistances : List TechInfo.LayerResistance :=
  [
  addLayerResistance "GatPoly" 7000, -- 344
  addLayerResistance "Metal1" 110, -- 345
  addLayerResistance "Metal2" 88, -- 346
  addLayerResistance "Metal3" 88, -- 347
  addLayerResistance "Metal4" 88, -- 348
  addLayerResistance "Metal5" 88, -- 349
  addLayerResistance "TopMetal1" 18, -- 350
  addLayerResistance "TopMetal2" 11] -- 351

/-- The calls of `addContactResistance` in `buildProcessParasiticsInfo`; pdk/ihp_sg13g2.cpp 356–358. -/
def contactResistances : List TechInfo.ContactResistance :=
  [
  addContactResistance "cont_nsd_con" "nsd_fet" "metal1_con" 17000, -- 356
  addContactResistance "cont_psd_con" "psd_fet" "metal1_con" 17000, -- 357
  addContactResistance "cont_poly_con" "poly_con" "metal1_con" 15000] -- 358

/-- The calls of `addViaResistance` in `buildProcessParasiticsInfo`; pdk/ihp_sg13g2.cpp 363–368. -/
def viaResistances : List TechInfo.ViaResistance :=
  [
  addViaResistance "Via1" 9000, -- 363
  addViaResistance "Via2" 9000, -- 364
  addViaResistance "Via3" 9000, -- 365
  addViaResistance "Via4" 9000, -- 366
  addViaResistance "TopVia1" 2200, -- 367
  addViaResistance "TopVia2" 1100] -- 368

/-- The calls of `addSubstrateCap` in `buildProcessParasiticsInfo`; pdk/ihp_sg13g2.cpp 373–380. -/
def substrates : List TechInfo.SubstrateCap :=
  [
  addSubstrateCap "GatPoly" 87.433 44.537, -- 373
  addSubstrateCap "Metal1" 35.015 39.585, -- 374
  addSubstrateCap "Metal2" 18.180 34.798, -- 375
  addSubstrateCap "Metal3" 11.994 31.352, -- 376
  addSubstrateCap "Metal4" 8.948 29.083, -- 377
  addSubstrateCap "Metal5" 7.136 27.527, -- 378
  addSubstrateCap "TopMetal1" 5.649 37.383, -- 379
  addSubstrateCap "TopMetal2" 3.233 31.175] -- 380

/-- The calls of `addOverlapCap` in `buildProcessParasiticsInfo`; pdk/ihp_sg13g2.cpp 386–443. -/
def overlaps : List TechInfo.OverlapSpec :=
  let diff_lv_nonfet := "Activ" -- 382
  let diff_hv_nonfet := "Activ" -- 383
  [
  addOverlapCap "GatPoly" "NWell" 87.433, -- 386
  addOverlapCap "GatPoly" "PWell" 87.433, -- 387
  addOverlapCap "Metal1" "PWell" 35.015, -- 388
  addOverlapCap "Metal1" "NWell" 35.015, -- 389
  addOverlapCap "Metal1" diff_lv_nonfet 58.168, -- 390
  addOverlapCap "Metal1" diff_hv_nonfet 57.702, -- 391
  addOverlapCap "Metal1" "GatPoly" 78.653, -- 392
  addOverlapCap "Metal2" "PWell" 18.180, -- 393
  addOverlapCap "Metal2" "NWell" 18.180, -- 394
  addOverlapCap "Metal2" diff_lv_nonfet 22.916, -- 395
  addOverlapCap "Metal2" diff_hv_nonfet 22.844, -- 396
  addOverlapCap "Metal2" "GatPoly" 25.537, -- 397
  addOverlapCap "Metal2" "Metal1" 67.225, -- 398
  addOverlapCap "Metal3" "NWell" 11.994, -- 399
  addOverlapCap "Metal3" "PWell" 11.994, -- 400
  addOverlapCap "Metal3" diff_lv_nonfet 13.887, -- 401
  addOverlapCap "Metal3" diff_hv_nonfet 13.860, -- 402
  addOverlapCap "Metal3" "GatPoly" 14.808, -- 403
  addOverlapCap "Metal3" "Metal1" 23.122, -- 404
  addOverlapCap "Metal3" "Metal2" 67.225, -- 405
  addOverlapCap "Metal4" "NWell" 8.948, -- 406
  addOverlapCap "Metal4" "PWell" 8.948, -- 407
  addOverlapCap "Metal4" diff_lv_nonfet 9.962, -- 408
  addOverlapCap "Metal4" diff_hv_nonfet 9.948, -- 409
  addOverlapCap "Metal4" "GatPoly" 10.427, -- 410
  addOverlapCap "Metal4" "Metal1" 13.962, -- 411
  addOverlapCap "Metal4" "Metal2" 23.122, -- 412
  addOverlapCap "Metal4" "Metal3" 67.225, -- 413
  addOverlapCap "Metal5" "NWell" 7.136, -- 414
  addOverlapCap "Metal5" "PWell" 7.136, -- 415
  addOverlapCap "Metal5" diff_lv_nonfet 7.766, -- 416
  addOverlapCap "Metal5" diff_hv_nonfet 7.758, -- 417
  addOverlapCap "Metal5" "GatPoly" 8.046, -- 418
  addOverlapCap "Metal5" "Metal1" 10.000, -- 419
  addOverlapCap "Metal5" "Metal2" 13.962, -- 420
  addOverlapCap "Metal5" "Metal3" 23.122, -- 421
  addOverlapCap "Metal5" "Metal4" 67.225, -- 422
  addOverlapCap "TopMetal1" "NWell" 5.649, -- 423
  addOverlapCap "TopMetal1" "PWell" 5.649, -- 424
  addOverlapCap "TopMetal1" diff_lv_nonfet 6.036, -- 425
  addOverlapCap "TopMetal1" diff_hv_nonfet 6.031, -- 426
  addOverlapCap "TopMetal1" "GatPoly" 6.204, -- 427
  addOverlapCap "TopMetal1" "Metal1" 7.304, -- 428
  addOverlapCap "TopMetal1" "Metal2" 9.214, -- 429
  addOverlapCap "TopMetal1" "Metal3" 12.475, -- 430
  addOverlapCap "TopMetal1" "Metal4" 19.309, -- 431
  addOverlapCap "TopMetal1" "Metal5" 42.708, -- 432
  addOverlapCap "TopMetal2" "NWell" 3.233, -- 433
  addOverlapCap "TopMetal2" "PWell" 3.233, -- 434
  addOverlapCap "TopMetal2" diff_lv_nonfet 3.357, -- 435
  addOverlapCap "TopMetal2" diff_hv_nonfet 3.355, -- 436
  addOverlapCap "TopMetal2" "GatPoly" 3.408, -- 437
  addOverlapCap "TopMetal2" "Metal1" 3.716, -- 438
  addOverlapCap "TopMetal2" "Metal2" 4.154, -- 439
  addOverlapCap "TopMetal2" "Metal3" 4.708, -- 440
  addOverlapCap "TopMetal2" "Metal4" 5.434, -- 441
  addOverlapCap "TopMetal2" "Metal5" 6.425, -- 442
  addOverlapCap "TopMetal2" "TopMetal1" 12.965] -- 443

/-- The calls of `addSidewallCap` in `buildProcessParasiticsInfo`; pdk/ihp_sg13g2.cpp 446–453. -/
def sidewalls : List TechInfo.SidewallSpec :=
  [
  addSidewallCap "GatPoly" 11.722 (-0.023), -- 446
  addSidewallCap "Metal1" 28.735 (-0.057), -- 447
  addSidewallCap "Metal2" 40.981 (-0.033), -- 448
  addSidewallCap "Metal3" 37.679 (-0.045), -- 449
  addSidewallCap "Metal4" 49.526 0.004, -- 450
  addSidewallCap "Metal5" 53.129 0.021, -- 451
  addSidewallCap "TopMetal1" 162.172 0.343, -- 452
  addSidewallCap "TopMetal2" 227.323 1.893] -- 453

/-- The calls of `addSidewallOverlapCap` in `buildProcessParasiticsInfo`; pdk/ihp_sg13g2.cpp 456–543. -/
def sideoverlaps : List TechInfo.SideOverlapSpec :=
  let diff_lv_nonfet := "Activ" -- 382
  let diff_hv_nonfet := "Activ" -- 383
  [
  addSidewallOverlapCap "GatPoly" "NWell" 44.537, -- 456
  addSidewallOverlapCap "GatPoly" "PWell" 44.537, -- 457
  addSidewallOverlapCap "Metal1" "NWell" 39.585, -- 458
  addSidewallOverlapCap "Metal1" "PWell" 39.585, -- 459
  addSidewallOverlapCap "Metal1" diff_lv_nonfet 44.749, -- 460
  addSidewallOverlapCap "Metal1" diff_hv_nonfet 45.041, -- 461
  addSidewallOverlapCap "Metal1" "GatPoly" 49.378, -- 462
  addSidewallOverlapCap "GatPoly" "Metal1" 23.229, -- 463
  addSidewallOverlapCap "Metal2" "NWell" 34.798, -- 464
  addSidewallOverlapCap "Metal2" "PWell" 34.798, -- 465
  addSidewallOverlapCap "Metal2" diff_lv_nonfet 36.950, -- 466
  addSidewallOverlapCap "Metal2" diff_hv_nonfet 36.919, -- 467
  addSidewallOverlapCap "Metal2" "GatPoly" 37.616, -- 468
  addSidewallOverlapCap "GatPoly" "Metal2" 10.801, -- 469
  addSidewallOverlapCap "Metal2" "Metal1" 49.543, -- 470
  addSidewallOverlapCap "Metal1" "Metal2" 31.073, -- 471
  addSidewallOverlapCap "Metal3" "NWell" 31.352, -- 472
  addSidewallOverlapCap "Metal3" "PWell" 31.352, -- 473
  addSidewallOverlapCap "Metal3" diff_lv_nonfet 32.271, -- 474
  addSidewallOverlapCap "Metal3" diff_hv_nonfet 32.495, -- 475
  addSidewallOverlapCap "Metal3" "GatPoly" 32.795, -- 476
  addSidewallOverlapCap "GatPoly" "Metal3" 7.068, -- 477
  addSidewallOverlapCap "Metal3" "Metal1" 37.009, -- 478
  addSidewallOverlapCap "Metal1" "Metal3" 17.349, -- 479
  addSidewallOverlapCap "Metal3" "Metal2" 49.537, -- 480
  addSidewallOverlapCap "Metal2" "Metal3" 36.907, -- 481
  addSidewallOverlapCap "Metal4" "NWell" 29.083, -- 482
  addSidewallOverlapCap "Metal4" "PWell" 29.083, -- 483
  addSidewallOverlapCap "Metal4" diff_lv_nonfet 29.755, -- 484
  addSidewallOverlapCap "Metal4" diff_hv_nonfet 29.942, -- 485
  addSidewallOverlapCap "Metal4" "GatPoly" 30.101, -- 486
  addSidewallOverlapCap "GatPoly" "Metal4" 5.240, -- 487
  addSidewallOverlapCap "Metal4" "Metal1" 32.162, -- 488
  addSidewallOverlapCap "Metal1" "Metal4" 12.398, -- 489
  addSidewallOverlapCap "Metal4" "Metal2" 36.335, -- 490
  addSidewallOverlapCap "Metal2" "Metal4" 22.327, -- 491
  addSidewallOverlapCap "Metal4" "Metal3" 49.537, -- 492
  addSidewallOverlapCap "Metal3" "Metal4" 40.019, -- 493
  addSidewallOverlapCap "Metal5" "NWell" 27.527, -- 494
  addSidewallOverlapCap "Metal5" "PWell" 27.527, -- 495
  addSidewallOverlapCap "Metal5" diff_lv_nonfet 28.227, -- 496
  addSidewallOverlapCap "Metal5" diff_hv_nonfet 28.221, -- 497
  addSidewallOverlapCap "Metal5" "GatPoly" 28.414, -- 498
  addSidewallOverlapCap "GatPoly" "Metal5" 4.178, -- 499
  addSidewallOverlapCap "Metal5" "Metal1" 29.935, -- 500
  addSidewallOverlapCap "Metal1" "Metal5" 9.725, -- 501
  addSidewallOverlapCap "Metal5" "Metal2" 32.116, -- 502
  addSidewallOverlapCap "Metal2" "Metal5" 16.534, -- 503
  addSidewallOverlapCap "Metal5" "Metal3" 36.971, -- 504
  addSidewallOverlapCap "Metal3" "Metal5" 24.785, -- 505
  addSidewallOverlapCap "Metal5" "Metal4" 49.517, -- 506
  addSidewallOverlapCap "Metal4" "Metal5" 41.956, -- 507
  addSidewallOverlapCap "TopMetal1" "NWell" 37.383, -- 509
  addSidewallOverlapCap "TopMetal1" "PWell" 37.383, -- 510
  addSidewallOverlapCap "TopMetal1" diff_lv_nonfet 38.084, -- 511
  addSidewallOverlapCap "TopMetal1" diff_hv_nonfet 38.085, -- 512
  addSidewallOverlapCap "TopMetal1" "GatPoly" 38.376, -- 513
  addSidewallOverlapCap "GatPoly" "TopMetal1" 3.316, -- 514
  addSidewallOverlapCap "TopMetal1" "Metal1" 39.678, -- 515
  addSidewallOverlapCap "Metal1" "TopMetal1" 7.669, -- 516
  addSidewallOverlapCap "TopMetal1" "Metal2" 42.268, -- 517
  addSidewallOverlapCap "Metal2" "TopMetal1" 12.649, -- 518
  addSidewallOverlapCap "TopMetal1" "Metal3" 46.611, -- 519
  addSidewallOverlapCap "Metal3" "TopMetal1" 17.848, -- 520
  addSidewallOverlapCap "TopMetal1" "Metal4" 52.657, -- 521
  addSidewallOverlapCap "Metal4" "TopMetal1" 24.526, -- 522
  addSidewallOverlapCap "TopMetal1" "Metal5" 65.859, -- 523
  addSidewallOverlapCap "Metal5" "TopMetal1" 36.377, -- 524
  addSidewallOverlapCap "TopMetal2" "NWell" 31.175, -- 526
  addSidewallOverlapCap "TopMetal2" "PWell" 31.175, -- 527
  addSidewallOverlapCap "TopMetal2" diff_lv_nonfet 31.484, -- 528
  addSidewallOverlapCap "TopMetal2" diff_hv_nonfet 30.835, -- 529
  addSidewallOverlapCap "TopMetal2" "GatPoly" 30.971, -- 530
  addSidewallOverlapCap "GatPoly" "TopMetal2" 1.909, -- 531
  addSidewallOverlapCap "TopMetal2" "Metal1" 32.318, -- 532
  addSidewallOverlapCap "Metal1" "TopMetal2" 4.344, -- 533
  addSidewallOverlapCap "TopMetal2" "Metal2" 33.245, -- 534
  addSidewallOverlapCap "Metal2" "TopMetal2" 6.975, -- 535
  addSidewallOverlapCap "TopMetal2" "Metal3" 34.339, -- 536
  addSidewallOverlapCap "Metal3" "TopMetal2" 9.381, -- 537
  addSidewallOverlapCap "TopMetal2" "Metal4" 35.630, -- 538
  addSidewallOverlapCap "Metal4" "TopMetal2" 11.825, -- 539
  addSidewallOverlapCap "TopMetal2" "Metal5" 37.206, -- 540
  addSidewallOverlapCap "Metal5" "TopMetal2" 14.415, -- 541
  addSidewallOverlapCap "TopMetal2" "TopMetal1" 44.735, -- 542
  addSidewallOverlapCap "TopMetal1" "TopMetal2" 33.071] -- 543

/-- `buildProcessParasiticsInfo`; pdk/ihp_sg13g2.cpp 335–544. -/
def buildProcessParasiticsInfo : TechInfo.Parasitics :=
  { sideHalo := 8, layerResistances := layerResistances, contactResistances := contactResistances, viaResistances := viaResistances
    substrates := substrates, overlaps := overlaps, sidewalls := sidewalls, sideoverlaps := sideoverlaps }

/-- `buildTech`; pdk/ihp_sg13g2.cpp 546–558. -/
def tech : Technology :=
  { name := "ihp_sg13g2", layers := buildLayers, computed := buildLVSComputedLayers, stack := buildProcessStackInfo
    parasitics := buildProcessParasiticsInfo }

end Verif.Pdk.Sg13g2
