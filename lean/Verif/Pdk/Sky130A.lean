import Verif.Pdk.Model

/-!
# The technology definition of sky130A

Translated by `tools/gen_pdk.py` from `cxx/gen_tech_pb/pdk/sky130A.cpp`, call by call. The numbers at the ends of the
lines are the lines of the source.
-/

namespace Verif.Pdk.Sky130A

/-- `buildLayers`; pdk/sky130A.cpp 47–70. -/
def buildLayers : List LayerInfo := [
  addLayer .dnwell "dnwell" 64 18 (-1) (-1) (-1) (-1), -- 49
  addLayer .nwell "nwell" 64 20 64 16 64 5, -- 50
  addLayer .diff "diff" 65 20 65 16 65 5, -- 51
  addLayer .ntapOrPtap "tap" 65 44 (-1) (-1) (-1) (-1), -- 52
  addLayer .pImplant "psdm" 94 20 (-1) (-1) (-1) (-1), -- 53
  addLayer .nImplant "nsdm" 93 44 (-1) (-1) (-1) (-1), -- 54
  addLayer .metal "poly" 66 20 66 16 66 5, -- 55
  addLayer .contact "licon1" 66 44 (-1) (-1) (-1) (-1), -- 56
  addLayer .metal "li1" 67 20 67 16 67 5, -- 57
  addLayer .via "mcon" 67 44 (-1) (-1) (-1) (-1), -- 58
  addLayer .metal "met1" 68 20 68 16 68 5, -- 59
  addLayer .via "via" 68 44 (-1) (-1) (-1) (-1), -- 60
  addLayer .metal "met2" 69 20 69 16 69 5, -- 61
  addLayer .via "via2" 69 44 (-1) (-1) (-1) (-1), -- 62
  addLayer .metal "met3" 70 20 70 16 70 5, -- 63
  addLayer .via "via3" 70 44 (-1) (-1) (-1) (-1), -- 64
  addLayer .mimCap "capm" 89 44 (-1) (-1) (-1) (-1), -- 65
  addLayer .metal "met4" 71 20 71 16 71 5, -- 66
  addLayer .mimCap "capm2" 97 44 (-1) (-1) (-1) (-1), -- 67
  addLayer .via "via4" 71 44 (-1) (-1) (-1) (-1), -- 68
  addLayer .metal "met5" 72 20 72 16 72 5] -- 69

/-- `buildLVSComputedLayers`; pdk/sky130A.cpp 72–138. -/
def buildLVSComputedLayers : List ComputedLayer := [
  addComputedLayer .dnwell .regular "dnwell" 64 18 "dnwell", -- 80
  addComputedLayer .nwell .regular "nwell" 64 20 "nwell", -- 81
  addComputedLayer .nImplant .regular "nsd" 93 44 "nsdm", -- 82
  addComputedLayer .pImplant .regular "psd" 94 20 "psdm", -- 83
  addComputedLayer .ntap .regular "ntap_conn" 65 144 "tap", -- 84
  addComputedLayer .ptap .regular "ptap_conn" 65 244 "tap", -- 85
  addComputedLayer .metal .regular "poly_con" 66 20 "poly", -- 86
  addComputedLayer .metal .regular "li_con" 67 20 "li1", -- 87
  addComputedLayer .metal .regular "met1_con" 68 20 "met1", -- 88
  addComputedLayer .metal .regular "met2_con" 69 20 "met2", -- 89
  addComputedLayer .metal .regular "met3_ncap" 70 20 "met3", -- 90
  addComputedLayer .metal .regular "met4_ncap" 71 20 "met4", -- 91
  addComputedLayer .metal .regular "met5_con" 72 20 "met5", -- 92
  addComputedLayer .contact .regular "licon_nsd_con" 66 4401 "licon1", -- 93
  addComputedLayer .contact .regular "licon_psd_con" 66 4402 "licon1", -- 94
  addComputedLayer .contact .regular "licon_poly_con" 66 4403 "licon1", -- 95
  addComputedLayer .via .regular "mcon_con" 67 44 "mcon", -- 96
  addComputedLayer .via .regular "via1_con" 68 44 "via1", -- 97
  addComputedLayer .via .regular "via2_con" 69 44 "via2", -- 98
  addComputedLayer .via .regular "via3_ncap" 70 144 "via3", -- 99
  addComputedLayer .via .regular "via4_ncap" 71 144 "via4", -- 100
  addComputedLayer .via .deviceCapacitor "via3_cap" 70 244 "via3", -- 102
  addComputedLayer .via .deviceCapacitor "via4_cap" 71 244 "via4", -- 103
  addComputedLayer .metal .deviceCapacitor "met3_cap" 70 220 "met3", -- 104
  addComputedLayer .metal .deviceCapacitor "met4_cap" 71 220 "met4", -- 105
  addComputedLayer .mimCap .deviceCapacitor "capm" 89 44 "capm", -- 106
  addComputedLayer .mimCap .deviceCapacitor "capm2" 97 44 "capm2", -- 107
  addComputedLayer .metal .deviceCapacitor "poly_vpp" 66 200 "poly", -- 109
  addComputedLayer .metal .deviceCapacitor "li_vpp" 67 200 "li1", -- 110
  addComputedLayer .metal .deviceCapacitor "met1_vpp" 68 200 "met1", -- 111
  addComputedLayer .metal .deviceCapacitor "met2_vpp" 69 200 "met2", -- 112
  addComputedLayer .metal .deviceCapacitor "met3_vpp" 70 200 "met3", -- 113
  addComputedLayer .metal .deviceCapacitor "met4_vpp" 71 200 "met4", -- 114
  addComputedLayer .metal .deviceCapacitor "met5_vpp" 72 200 "met5", -- 115
  addComputedLayer .contact .deviceCapacitor "licon_vpp" 66 440 "licon1", -- 116
  addComputedLayer .via .deviceCapacitor "mcon_vpp" 67 440 "mcon", -- 117
  addComputedLayer .via .deviceCapacitor "via1_vpp" 68 440 "via", -- 118
  addComputedLayer .via .deviceCapacitor "via2_vpp" 69 440 "via2", -- 119
  addComputedLayer .via .deviceCapacitor "via3_vpp" 70 440 "via3", -- 120
  addComputedLayer .via .deviceCapacitor "via4_vpp" 71 440 "via4", -- 121
  addComputedLayer .metal .pin "poly_pin_con" 66 16 "poly.pin", -- 123
  addComputedLayer .metal .pin "li_pin_con" 67 16 "li1.pin", -- 124
  addComputedLayer .metal .pin "met1_pin_con" 68 16 "met1.pin", -- 125
  addComputedLayer .metal .pin "met2_pin_con" 69 16 "met2.pin", -- 126
  addComputedLayer .metal .pin "met3_pin_con" 70 16 "met3.pin", -- 127
  addComputedLayer .metal .pin "met4_pin_con" 71 16 "met4.pin", -- 128
  addComputedLayer .metal .pin "met5_pin_con" 72 16 "met5.pin", -- 129
  addComputedLayer .metal .label "poly_label" 66 5 "poly.label", -- 131
  addComputedLayer .metal .label "li_label" 67 5 "li1.label", -- 132
  addComputedLayer .metal .label "met1_pin_con" 68 5 "met1.label", -- 133
  addComputedLayer .metal .label "met2_pin_con" 69 5 "met2.label", -- 134
  addComputedLayer .metal .label "met3_pin_con" 70 5 "met3.label", -- 135
  addComputedLayer .metal .label "met4_pin_con" 71 5 "met4.label", -- 136
  addComputedLayer .metal .label "met5_pin_con" 72 5 "met5.label"] -- 137

/-- `buildProcessStackInfo`; pdk/sky130A.cpp 140–303. The pointers to the contacts are resolved. -/
def buildProcessStackInfo : List StackLayer :=
  let capm_thickness : ℚ := 0.1 -- 214
  let capild_k : ℚ := 4.52 -- 215
  let capild_thickness : ℚ := 0.02 -- 216
  [
  addSubstrateLayer "subs" 0.1 0.33 "fox", -- 144
  addNWellLayer "nwell" 0.1 "fox"
    (some {}), -- 149, 277
  addDiffusionLayer "nsd" 0.323 "fox"
    (some (setContact "licon_nsd_con" "nsdm" "li1" 0.9361 0.17 0.17 0.0)), -- 151, 293
  addDiffusionLayer "psd" 0.323 "fox"
    (some (setContact "licon_psd_con" "psdm" "li1" 0.9361 0.17 0.17 0.0)), -- 152, 294
  addFieldOxideLayer "fox" 4.632, -- 156
  addMetalLayer "poly" 0.3262 0.18
    (some (setContact "licon_poly_con" "poly" "li1" 0.4299 0.17 0.17 0.0)), -- 161, 295
  addSidewallDielectric "iox" 0.39 0.18 0.006 "poly", -- 165
  addSidewallDielectric "spnit" 7.5 0.121 0.0431 "iox", -- 166
  addSimpleDielectric "psg" 3.9 "fox", -- 170
  addMetalLayer "li1" 0.9361 0.1
    (some (setContact "mcon_con" "li1" "met1" (1.3761 - (0.9361 + 0.1)) 0.17 0.19 0.0)), -- 174, 296
  addConformalDielectric "lint" 7.3 0.075 0.075 0.075 "li1", -- 179
  addSimpleDielectric "nild2" 4.05 "lint", -- 183
  addMetalLayer "met1" 1.3761 0.36
    (some (setContact "via1_con" "met1" "met2" 0.27 0.15 0.17 0.055)), -- 187, 297
  addSidewallDielectric "nild3c" 3.5 0.0 0.03 "met1", -- 191
  addSimpleDielectric "nild3" 4.5 "nild2", -- 195
  addMetalLayer "met2" 2.0061 0.36
    (some (setContact "via2_con" "met2" "met3" 0.42 0.20 0.20 0.04)), -- 199, 298
  addSidewallDielectric "nild4c" 3.5 0.0 0.03 "met2", -- 203
  addSimpleDielectric "nild4" 4.2 "nild3", -- 207
  addMetalLayer "met3_ncap" 2.7861 0.845
    (some (setContact "via3_ncap" "met3" "met4" 0.39 0.20 0.20 0.06)), -- 211, 299
  addMetalLayer "met3_cap" 2.7861 0.845, -- 212
  addConformalDielectric "capild" capild_k capild_thickness 0.0 0.0 "met3_cap", -- 221
  addSimpleDielectric "nild5" 4.1 "nild4", -- 225
  addMetalLayer "capm" (2.7861 + 0.845 + capild_thickness) capm_thickness
    (some (setContact "via3_cap" "met3" "met4" 0.29 0.20 0.20 0.06)), -- 229, 300
  addSimpleDielectric "nild5" 4.1 "nild4", -- 233
  addMetalLayer "met4_ncap" 4.0211 0.845
    (some (setContact "via4_ncap" "met4" "met5" 0.505 0.80 0.80 0.19)), -- 237, 301
  addConformalDielectric "capild" capild_k capild_thickness 0.0 0.0 "met4_cap", -- 242
  addMetalLayer "met4_cap" 4.0211 0.845, -- 246
  addSimpleDielectric "nild6" 4.0 "nild5", -- 250
  addMetalLayer "capm2" (4.0211 + 0.845 + capild_thickness) capm_thickness
    (some (setContact "via4_cap" "met4" "met5" (0.505 - 0.1) 0.80 0.80 0.19)), -- 254, 302
  addSimpleDielectric "nild6" 4.0 "nild5", -- 258
  addMetalLayer "met5" 5.3711 1.26, -- 262
  addSidewallDielectric "topox" 3.9 0.09 0.07 "met5", -- 266
  addConformalDielectric "topnit" 7.5 0.54 0.4223 0.3777 "topox", -- 271
  addSimpleDielectric "air" 3.0 "topnit"] -- 275

/-- The calls of `addLayerResistance` in `buildProcessParasiticsInfo`; pdk/sky130A.cpp 314–320. -/
def layerResistances : List TechInfo.LayerResistance :=
  [
  addLayerResistance "poly" 48200, -- 314
  addLayerResistance "li1" 12800, -- 315
  addLayerResistance "met1" 125, -- 316
  addLayerResistance "met2" 125, -- 317
  addLayerResistance "met3" 47, -- 318
  addLayerResistance "met4" 47, -- 319
  addLayerResistance "met5" 29] -- 320

/-- The calls of `addContactResistance` in `buildProcessParasiticsInfo`; pdk/sky130A.cpp 324–326. -/
def contactResistances : List TechInfo.ContactResistance :=
  [
  addContactResistance "licon_nsd_con" "nsdm" "li1" 185000, -- 324
  addContactResistance "licon_psd_con" "psdm" "li1" 585000, -- 325
  addContactResistance "licon_poly_con" "poly" "li1" 152000] -- 326

/-- The calls of `addViaResistance` in `buildProcessParasiticsInfo`; pdk/sky130A.cpp 330–335. -/
def viaResistances : List TechInfo.ViaResistance :=
  [
  addViaResistance "poly" 152000, -- 330
  addViaResistance "mcon" 9300, -- 331
  addViaResistance "via" 4500, -- 332
  addViaResistance "via2" 3410, -- 333
  addViaResistance "via3" 3410, -- 334
  addViaResistance "via4" 380] -- 335

/-- The calls of `addSubstrateCap` in `buildProcessParasiticsInfo`; pdk/sky130A.cpp 341–347. -/
def substrates : List TechInfo.SubstrateCap :=
  [
  addSubstrateCap "poly" 106.13 55.27, -- 341
  addSubstrateCap "li1" 36.99 40.7, -- 342
  addSubstrateCap "met1" 25.78 40.57, -- 343
  addSubstrateCap "met2" 17.5 37.76, -- 344
  addSubstrateCap "met3" 12.37 40.99, -- 345
  addSubstrateCap "met4" 8.42 36.68, -- 346
  addSubstrateCap "met5" 6.32 38.85] -- 347

/-- The calls of `addOverlapCap` in `buildProcessParasiticsInfo`; pdk/sky130A.cpp 355–397. -/
def overlaps : List TechInfo.OverlapSpec :=
  let diff_nonfet := "diff" -- 349
  let poly_nonres := "poly" -- 350
  let all_active := "diff" -- 351
  [
  addOverlapCap "pwell" "dnwell" 120.0, -- 355
  addOverlapCap "poly" "nwell" 106.13, -- 356
  addOverlapCap "poly" "pwell" 106.13, -- 357
  addOverlapCap "li1" "pwell" 36.99, -- 358
  addOverlapCap "li1" "nwell" 36.99, -- 359
  addOverlapCap "li1" "nwell" 36.99, -- 360
  addOverlapCap "li1" diff_nonfet 55.3, -- 361
  addOverlapCap "li1" "poly" 94.16, -- 362
  addOverlapCap "met1" "pwell" 25.78, -- 363
  addOverlapCap "met1" "nwell" 25.78, -- 364
  addOverlapCap "met1" diff_nonfet 33.6, -- 365
  addOverlapCap "met1" poly_nonres 44.81, -- 366
  addOverlapCap "met1" "li1" 114.20, -- 367
  addOverlapCap "met2" "nwell" 17.5, -- 368
  addOverlapCap "met2" "pwell" 17.5, -- 369
  addOverlapCap "met2" diff_nonfet 20.8, -- 370
  addOverlapCap "met2" poly_nonres 24.50, -- 371
  addOverlapCap "met2" "li1" 37.56, -- 372
  addOverlapCap "met2" "met1" 133.86, -- 373
  addOverlapCap "met3" "nwell" 12.37, -- 374
  addOverlapCap "met3" "pwell" 12.37, -- 375
  addOverlapCap "met3" all_active 14.2, -- 376
  addOverlapCap "met3" poly_nonres 16.06, -- 377
  addOverlapCap "met3" "li1" 20.79, -- 378
  addOverlapCap "met3" "met1" 34.54, -- 379
  addOverlapCap "met3" "met2" 86.19, -- 380
  addOverlapCap "met4" "nwell" 8.42, -- 381
  addOverlapCap "met4" "pwell" 8.42, -- 382
  addOverlapCap "met4" all_active 9.41, -- 383
  addOverlapCap "met4" poly_nonres 10.01, -- 384
  addOverlapCap "met4" "li1" 11.67, -- 385
  addOverlapCap "met4" "met1" 15.03, -- 386
  addOverlapCap "met4" "met2" 20.33, -- 387
  addOverlapCap "met4" "met3" 84.03, -- 388
  addOverlapCap "met5" "nwell" 6.32, -- 389
  addOverlapCap "met5" "pwell" 6.32, -- 390
  addOverlapCap "met5" all_active 6.88, -- 391
  addOverlapCap "met5" poly_nonres 7.21, -- 392
  addOverlapCap "met5" "li1" 8.03, -- 393
  addOverlapCap "met5" "met1" 9.48, -- 394
  addOverlapCap "met5" "met2" 11.34, -- 395
  addOverlapCap "met5" "met3" 19.63, -- 396
  addOverlapCap "met5" "met4" 68.33] -- 397

/-- The calls of `addSidewallCap` in `buildProcessParasiticsInfo`; pdk/sky130A.cpp 400–406. -/
def sidewalls : List TechInfo.SidewallSpec :=
  [
  addSidewallCap "poly" 16.0 0.0, -- 400
  addSidewallCap "li1" 25.5 0.14, -- 401
  addSidewallCap "met1" 44 0.25, -- 402
  addSidewallCap "met2" 50 0.3, -- 403
  addSidewallCap "met3" 74.0 0.4, -- 404
  addSidewallCap "met4" 94.0 0.57, -- 405
  addSidewallCap "met5" 155 0.5] -- 406

/-- The calls of `addSidewallOverlapCap` in `buildProcessParasiticsInfo`; pdk/sky130A.cpp 409–471. -/
def sideoverlaps : List TechInfo.SideOverlapSpec :=
  let diff_nonfet := "diff" -- 349
  let poly_nonres := "poly" -- 350
  let all_active := "diff" -- 351
  [
  addSidewallOverlapCap "poly" "nwell" 55.27, -- 409
  addSidewallOverlapCap "poly" "pwell" 55.27, -- 410
  addSidewallOverlapCap "li1" "nwell" 40.70, -- 411
  addSidewallOverlapCap "li1" "pwell" 40.70, -- 412
  addSidewallOverlapCap "li1" diff_nonfet 44.27, -- 413
  addSidewallOverlapCap "li1" poly_nonres 51.85, -- 414
  addSidewallOverlapCap "poly" "li1" 25.14, -- 415
  addSidewallOverlapCap "met1" "nwell" 40.57, -- 416
  addSidewallOverlapCap "met1" "pwell" 40.57, -- 417
  addSidewallOverlapCap "met1" diff_nonfet 43.10, -- 418
  addSidewallOverlapCap "met1" poly_nonres 46.72, -- 419
  addSidewallOverlapCap "poly" "met1" 16.69, -- 420
  addSidewallOverlapCap "met1" "li1" 59.50, -- 421
  addSidewallOverlapCap "li1" "met1" 34.70, -- 422
  addSidewallOverlapCap "met2" "nwell" 37.76, -- 423
  addSidewallOverlapCap "met2" "pwell" 37.76, -- 424
  addSidewallOverlapCap "met2" diff_nonfet 39.54, -- 425
  addSidewallOverlapCap "met2" poly_nonres 41.22, -- 426
  addSidewallOverlapCap "poly" "met2" 11.17, -- 427
  addSidewallOverlapCap "met2" "li1" 46.28, -- 428
  addSidewallOverlapCap "li1" "met2" 21.74, -- 429
  addSidewallOverlapCap "met2" "met1" 67.05, -- 430
  addSidewallOverlapCap "met1" "met2" 48.19, -- 431
  addSidewallOverlapCap "met3" "nwell" 40.99, -- 432
  addSidewallOverlapCap "met3" "pwell" 40.99, -- 433
  addSidewallOverlapCap "met3" all_active 42.25, -- 434
  addSidewallOverlapCap "met3" poly_nonres 43.53, -- 435
  addSidewallOverlapCap "poly" "met3" 9.18, -- 436
  addSidewallOverlapCap "met3" "li1" 46.71, -- 437
  addSidewallOverlapCap "li1" "met3" 15.08, -- 438
  addSidewallOverlapCap "met3" "met1" 54.81, -- 439
  addSidewallOverlapCap "met1" "met3" 26.68, -- 440
  addSidewallOverlapCap "met3" "met2" 69.85, -- 441
  addSidewallOverlapCap "met2" "met3" 44.43, -- 442
  addSidewallOverlapCap "met4" "nwell" 36.68, -- 443
  addSidewallOverlapCap "met4" "pwell" 36.68, -- 444
  addSidewallOverlapCap "met4" diff_nonfet 37.57, -- 445
  addSidewallOverlapCap "met4" poly_nonres 38.11, -- 446
  addSidewallOverlapCap "poly" "met4" 6.35, -- 447
  addSidewallOverlapCap "met4" "li1" 39.71, -- 448
  addSidewallOverlapCap "li1" "met4" 10.14, -- 449
  addSidewallOverlapCap "met4" "met1" 42.56, -- 450
  addSidewallOverlapCap "met1" "met4" 16.42, -- 451
  addSidewallOverlapCap "met4" "met2" 46.38, -- 452
  addSidewallOverlapCap "met2" "met4" 22.33, -- 453
  addSidewallOverlapCap "met4" "met3" 70.52, -- 454
  addSidewallOverlapCap "met3" "met4" 42.64, -- 455
  addSidewallOverlapCap "met5" "nwell" 38.85, -- 457
  addSidewallOverlapCap "met5" "pwell" 38.85, -- 458
  addSidewallOverlapCap "met5" diff_nonfet 39.52, -- 459
  addSidewallOverlapCap "met5" poly_nonres 39.91, -- 460
  addSidewallOverlapCap "poly" "met5" 6.49, -- 461
  addSidewallOverlapCap "met5" "li1" 41.15, -- 462
  addSidewallOverlapCap "li1" "met5" 7.64, -- 463
  addSidewallOverlapCap "met5" "met1" 43.19, -- 464
  addSidewallOverlapCap "met1" "met5" 12.02, -- 465
  addSidewallOverlapCap "met5" "met2" 45.59, -- 466
  addSidewallOverlapCap "met2" "met5" 15.69, -- 467
  addSidewallOverlapCap "met5" "met3" 54.15, -- 468
  addSidewallOverlapCap "met3" "met5" 27.84, -- 469
  addSidewallOverlapCap "met5" "met4" 82.82, -- 470
  addSidewallOverlapCap "met4" "met5" 46.98] -- 471

/-- `buildProcessParasiticsInfo`; pdk/sky130A.cpp 305–472. -/
def buildProcessParasiticsInfo : TechInfo.Parasitics :=
  { sideHalo := 8.0, layerResistances := layerResistances, contactResistances := contactResistances, viaResistances := viaResistances
    substrates := substrates, overlaps := overlaps, sidewalls := sidewalls, sideoverlaps := sideoverlaps }

/-- `buildTech`; pdk/sky130A.cpp 474–486. -/
def tech : Technology :=
  { name := "sky130A", layers := buildLayers, computed := buildLVSComputedLayers, stack := buildProcessStackInfo
    parasitics := buildProcessParasiticsInfo }

end Verif.Pdk.Sky130A
