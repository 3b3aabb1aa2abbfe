import Mathlib.Data.Fintype.Defs
import Mathlib.Data.Int.Notation

/-
Independent record of TR 38.811 parameter values. Generated by /verif/tools/gen_standard.py from the values that the project's
own test suite transcribes from the standard (/repo/test/step_2_test.py, step_4_1_test.py, step_4_2_test.py,
step_4_3_test.py, step_5_test.py); clutter loss and shadow fading are those of TR 38.811 Tables 6.6.2-1 to 6.6.2-3
(/repo/test/step_3_test.py repeats those of the suburban area). The parameter files in /repo/OpenNTN/models are not read.
Values are thousandths in the unit of the standard, `none` is minus infinity. Lists run over the elevations 10, 20, ..., 90.
The arguments after the area are: LoS, S band, uplink. Large-scale parameters are numbered DS, ASD, ASA, SF, K, ZSA, ZSD.
-/
namespace OpenNTN.Spec

inductive Area where
  | denseUrban
  | urban
  | subUrban
  deriving DecidableEq

/-- Entry of a list over the elevations. -/
def atRow {α : Type} (l : List α) (row : ℤ) : Option α := l[(row / 10 - 1).toNat]?

/-- Mean of the logarithm of a large-scale parameter; K-factor in dB. Not recorded (empty list): shadow fading, and the
K-factor of NLoS links. /repo/test/step_4_1_test.py -/
def meanRec : Area → (los sBand uplink : Bool) → ℕ → List (Option ℤ)
  | .denseUrban, true, true, true, 0 => [some (-7120), some (-7280), some (-7450), some (-7730), some (-7910), some (-8140), some (-8230), some (-8280), some (-8360)]
  | .denseUrban, true, true, true, 1 => [some (-3060), some (-2680), some (-2510), some (-2400), some (-2310), some (-2200), some (-2000), some (-1640), some (-630)]
  | .denseUrban, true, true, true, 2 => [some 940, some 870, some 920, some 790, some 720, some 600, some 550, some 710, some 810]
  | .denseUrban, true, true, true, 4 => [some 4400, some 9000, some 9300, some 7900, some 7400, some 7000, some 6900, some 6500, some 6800]
  | .denseUrban, true, true, true, 5 => [some 820, some 500, some 820, some 1230, some 1430, some 1560, some 1660, some 1730, some 1790]
  | .denseUrban, true, true, true, 6 => [some (-2520), some (-2290), some (-2190), some (-2240), some (-2300), some (-2480), some (-2640), some (-2680), some (-2610)]
  | .denseUrban, true, true, false, 0 => [some (-7120), some (-7280), some (-7450), some (-7730), some (-7910), some (-8140), some (-8230), some (-8280), some (-8360)]
  | .denseUrban, true, true, false, 1 => [none, none, none, none, none, none, none, none, none]
  | .denseUrban, true, true, false, 2 => [some 940, some 870, some 920, some 790, some 720, some 600, some 550, some 710, some 810]
  | .denseUrban, true, true, false, 4 => [some 4400, some 9000, some 9300, some 7900, some 7400, some 7000, some 6900, some 6500, some 6800]
  | .denseUrban, true, true, false, 5 => [some 820, some 500, some 820, some 1230, some 1430, some 1560, some 1660, some 1730, some 1790]
  | .denseUrban, true, true, false, 6 => [none, none, none, none, none, none, none, none, none]
  | .denseUrban, true, false, true, 0 => [some (-7430), some (-7620), some (-7760), some (-8020), some (-8130), some (-8300), some (-8340), some (-8390), some (-8450)]
  | .denseUrban, true, false, true, 1 => [some (-3430), some (-3060), some (-2910), some (-2810), some (-2740), some (-2720), some (-2460), some (-2300), some (-1110)]
  | .denseUrban, true, false, true, 2 => [some 650, some 530, some 600, some 430, some 360, some 160, some 180, some 240, some 360]
  | .denseUrban, true, false, true, 4 => [some 6100, some 13700, some 12900, some 10300, some 9200, some 8400, some 8000, some 7400, some 7600]
  | .denseUrban, true, false, true, 5 => [some 820, some 470, some 800, some 1230, some 1420, some 1560, some 1650, some 1730, some 1790]
  | .denseUrban, true, false, true, 6 => [some (-2750), some (-2640), some (-2490), some (-2510), some (-2540), some (-2710), some (-2850), some (-3010), some (-3080)]
  | .denseUrban, true, false, false, 0 => [some (-7430), some (-7620), some (-7760), some (-8020), some (-8130), some (-8300), some (-8340), some (-8390), some (-8450)]
  | .denseUrban, true, false, false, 1 => [none, none, none, none, none, none, none, none, none]
  | .denseUrban, true, false, false, 2 => [some 650, some 530, some 600, some 430, some 360, some 160, some 180, some 240, some 360]
  | .denseUrban, true, false, false, 4 => [some 6100, some 13700, some 12900, some 10300, some 9200, some 8400, some 8000, some 7400, some 7600]
  | .denseUrban, true, false, false, 5 => [some 820, some 470, some 800, some 1230, some 1420, some 1560, some 1650, some 1730, some 1790]
  | .denseUrban, true, false, false, 6 => [none, none, none, none, none, none, none, none, none]
  | .denseUrban, false, true, true, 0 => [some (-6840), some (-6810), some (-6940), some (-7140), some (-7340), some (-7530), some (-7670), some (-7820), some (-7840)]
  | .denseUrban, false, true, true, 1 => [some (-2080), some (-1680), some (-1430), some (-1430), some (-1440), some (-1330), some (-1310), some (-1110), some (-110)]
  | .denseUrban, false, true, true, 2 => [some 1000, some 1440, some 1540, some 1530, some 1480, some 1390, some 1420, some 1380, some 1230]
  | .denseUrban, false, true, true, 5 => [some 1000, some 940, some 1150, some 1350, some 1440, some 1560, some 1640, some 1700, some 1700]
  | .denseUrban, false, true, true, 6 => [some (-2080), some (-1660), some (-1480), some (-1460), some (-1530), some (-1610), some (-1770), some (-1900), some (-1990)]
  | .denseUrban, false, true, false, 0 => [some (-6840), some (-6810), some (-6940), some (-7140), some (-7340), some (-7530), some (-7670), some (-7820), some (-7840)]
  | .denseUrban, false, true, false, 1 => [none, none, none, none, none, none, none, none, none]
  | .denseUrban, false, true, false, 2 => [some 1000, some 1440, some 1540, some 1530, some 1480, some 1390, some 1420, some 1380, some 1230]
  | .denseUrban, false, true, false, 5 => [some 1000, some 940, some 1150, some 1350, some 1440, some 1560, some 1640, some 1700, some 1700]
  | .denseUrban, false, true, false, 6 => [none, none, none, none, none, none, none, none, none]
  | .denseUrban, false, false, true, 0 => [some (-6860), some (-6840), some (-7000), some (-7210), some (-7420), some (-7860), some (-7760), some (-8070), some (-7950)]
  | .denseUrban, false, false, true, 1 => [some (-2120), some (-1740), some (-1560), some (-1540), some (-1450), some (-1640), some (-1370), some (-1290), some (-410)]
  | .denseUrban, false, false, true, 2 => [some 1020, some 1440, some 1480, some 1460, some 1400, some 970, some 1330, some 1120, some 1040]
  | .denseUrban, false, false, true, 5 => [some 1010, some 960, some 1130, some 1300, some 1400, some 1410, some 1630, some 1680, some 1700]
  | .denseUrban, false, false, true, 6 => [some (-2110), some (-1690), some (-1520), some (-1510), some (-1510), some (-1840), some (-1860), some (-2160), some (-2210)]
  | .denseUrban, false, false, false, 0 => [some (-6860), some (-6840), some (-7000), some (-7210), some (-7420), some (-7860), some (-7760), some (-8070), some (-7950)]
  | .denseUrban, false, false, false, 1 => [none, none, none, none, none, none, none, none, none]
  | .denseUrban, false, false, false, 2 => [some 1020, some 1440, some 1480, some 1460, some 1400, some 970, some 1330, some 1120, some 1040]
  | .denseUrban, false, false, false, 5 => [some 1010, some 960, some 1130, some 1300, some 1400, some 1410, some 1630, some 1680, some 1700]
  | .denseUrban, false, false, false, 6 => [none, none, none, none, none, none, none, none, none]
  | .urban, true, true, true, 0 => [some (-7970), some (-8120), some (-8210), some (-8310), some (-8370), some (-8390), some (-8380), some (-8350), some (-8340)]
  | .urban, true, true, true, 1 => [some (-2600), some (-2480), some (-2440), some (-2600), some (-2710), some (-2780), some (-2780), some (-2650), some (-2270)]
  | .urban, true, true, true, 2 => [some 180, some 420, some 410, some 180, some (-70), some (-430), some (-640), some (-910), some (-540)]
  | .urban, true, true, true, 4 => [some 31830, some 18780, some 10490, some 7460, some 6520, some 5470, some 4540, some 4030, some 3680]
  | .urban, true, true, true, 5 => [some (-630), some (-150), some 540, some 350, some 270, some 260, some (-120), some (-210), some (-70)]
  | .urban, true, true, true, 6 => [some (-2540), some (-2670), some (-2030), some (-2280), some (-2480), some (-2560), some (-2960), some (-3080), some (-3000)]
  | .urban, true, true, false, 0 => [some (-7970), some (-8120), some (-8210), some (-8310), some (-8370), some (-8390), some (-8380), some (-8350), some (-8340)]
  | .urban, true, true, false, 1 => [none, none, none, none, none, none, none, none, none]
  | .urban, true, true, false, 2 => [some 180, some 420, some 410, some 180, some (-70), some (-430), some (-640), some (-910), some (-540)]
  | .urban, true, true, false, 4 => [some 31830, some 18780, some 10490, some 7460, some 6520, some 5470, some 4540, some 4030, some 3680]
  | .urban, true, true, false, 5 => [some (-630), some (-150), some 540, some 350, some 270, some 260, some (-120), some (-210), some (-70)]
  | .urban, true, true, false, 6 => [none, none, none, none, none, none, none, none, none]
  | .urban, true, false, true, 0 => [some (-8520), some (-8590), some (-8510), some (-8490), some (-8480), some (-8440), some (-8400), some (-8370), some (-8350)]
  | .urban, true, false, true, 1 => [some (-3180), some (-3050), some (-2980), some (-3110), some (-3190), some (-3250), some (-3330), some (-3220), some (-2830)]
  | .urban, true, false, true, 2 => [some (-400), some (-150), some (-180), some (-310), some (-580), some (-900), some (-1160), some (-1480), some (-1140)]
  | .urban, true, false, true, 4 => [some 40180, some 23620, some 12480, some 8560, some 7420, some 5970, some 4880, some 4220, some 3810]
  | .urban, true, false, true, 5 => [some (-670), some (-340), some 70, some (-80), some (-210), some (-250), some (-610), some (-790), some (-580)]
  | .urban, true, false, true, 6 => [some (-2610), some (-2820), some (-2480), some (-2760), some (-2930), some (-3050), some (-3450), some (-3660), some (-3560)]
  | .urban, true, false, false, 0 => [some (-8520), some (-8590), some (-8510), some (-8490), some (-8480), some (-8440), some (-8400), some (-8370), some (-8350)]
  | .urban, true, false, false, 1 => [none, none, none, none, none, none, none, none, none]
  | .urban, true, false, false, 2 => [some (-400), some (-150), some (-180), some (-310), some (-580), some (-900), some (-1160), some (-1480), some (-1140)]
  | .urban, true, false, false, 4 => [some 40180, some 23620, some 12480, some 8560, some 7420, some 5970, some 4880, some 4220, some 3810]
  | .urban, true, false, false, 5 => [some (-670), some (-340), some 70, some (-80), some (-210), some (-250), some (-610), some (-790), some (-580)]
  | .urban, true, false, false, 6 => [none, none, none, none, none, none, none, none, none]
  | .urban, false, true, true, 0 => [some (-7210), some (-7630), some (-7750), some (-7970), some (-7990), some (-8010), some (-8090), some (-7970), some (-8170)]
  | .urban, false, true, true, 1 => [some (-1550), some (-1610), some (-1730), some (-1950), some (-1940), some (-1880), some (-2100), some (-1800), some (-1770)]
  | .urban, false, true, true, 2 => [some 170, some 320, some 520, some 610, some 680, some 640, some 580, some 710, some 490]
  | .urban, false, true, true, 5 => [some (-970), some 490, some 1030, some 1120, some 1300, some 1320, some 1350, some 1310, some 1500]
  | .urban, false, true, true, 6 => [some (-2860), some (-2640), some (-2050), some (-2180), some (-2240), some (-2210), some (-2690), some (-2810), some (-4290)]
  | .urban, false, true, false, 0 => [some (-7210), some (-7630), some (-7750), some (-7970), some (-7990), some (-8010), some (-8090), some (-7970), some (-8170)]
  | .urban, false, true, false, 1 => [none, none, none, none, none, none, none, none, none]
  | .urban, false, true, false, 2 => [some 170, some 320, some 520, some 610, some 680, some 640, some 580, some 710, some 490]
  | .urban, false, true, false, 5 => [some (-970), some 490, some 1030, some 1120, some 1300, some 1320, some 1350, some 1310, some 1500]
  | .urban, false, true, false, 6 => [none, none, none, none, none, none, none, none, none]
  | .urban, false, false, true, 0 => [some (-7240), some (-7700), some (-7820), some (-8040), some (-8080), some (-8100), some (-8160), some (-8030), some (-8330)]
  | .urban, false, false, true, 1 => [some (-1580), some (-1670), some (-1840), some (-2020), some (-2060), some (-1990), some (-2190), some (-1880), some (-2000)]
  | .urban, false, false, true, 2 => [some 130, some 190, some 440, some 480, some 560, some 550, some 480, some 530, some 320]
  | .urban, false, false, true, 5 => [some (-1130), some 490, some 950, some 1150, some 1140, some 1130, some 1160, some 1280, some 1420]
  | .urban, false, false, true, 6 => [some (-2870), some (-2680), some (-2120), some (-2270), some (-2500), some (-2470), some (-2830), some (-2820), some (-4550)]
  | .urban, false, false, false, 0 => [some (-7240), some (-7700), some (-7820), some (-8040), some (-8080), some (-8100), some (-8160), some (-8030), some (-8330)]
  | .urban, false, false, false, 1 => [none, none, none, none, none, none, none, none, none]
  | .urban, false, false, false, 2 => [some 130, some 190, some 440, some 480, some 560, some 550, some 480, some 530, some 320]
  | .urban, false, false, false, 5 => [some (-1130), some 490, some 950, some 1150, some 1140, some 1130, some 1160, some 1280, some 1420]
  | .urban, false, false, false, 6 => [none, none, none, none, none, none, none, none, none]
  | .subUrban, true, true, true, 0 => [some (-8160), some (-8560), some (-8720), some (-8710), some (-8720), some (-8660), some (-8380), some (-8340), some (-8340)]
  | .subUrban, true, true, true, 1 => [some (-3570), some (-3800), some (-3770), some (-3570), some (-3420), some (-3270), some (-3080), some (-2750), some (-2750)]
  | .subUrban, true, true, true, 2 => [some 50, some (-380), some (-560), some (-590), some (-580), some (-550), some (-280), some (-170), some (-170)]
  | .subUrban, true, true, true, 4 => [some 11400, some 19450, some 20800, some 21200, some 21600, some 19750, some 12000, some 12850, some 12850]
  | .subUrban, true, true, true, 5 => [some (-1780), some (-1840), some (-1670), some (-1590), some (-1550), some (-1510), some (-1270), some (-1280), some (-1280)]
  | .subUrban, true, true, true, 6 => [some (-1060), some (-1210), some (-1280), some (-1320), some (-1390), some (-1360), some (-1080), some (-1310), some (-1310)]
  | .subUrban, true, true, false, 0 => [some (-8160), some (-8560), some (-8720), some (-8710), some (-8720), some (-8660), some (-8380), some (-8340), some (-8340)]
  | .subUrban, true, true, false, 1 => [none, none, none, none, none, none, none, none, none]
  | .subUrban, true, true, false, 2 => [some 50, some (-380), some (-560), some (-590), some (-580), some (-550), some (-280), some (-170), some (-170)]
  | .subUrban, true, true, false, 4 => [some 11400, some 19450, some 20800, some 21200, some 21600, some 19750, some 12000, some 12850, some 12850]
  | .subUrban, true, true, false, 5 => [some (-1780), some (-1840), some (-1670), some (-1590), some (-1550), some (-1510), some (-1270), some (-1280), some (-1280)]
  | .subUrban, true, true, false, 6 => [none, none, none, none, none, none, none, none, none]
  | .subUrban, true, false, true, 0 => [some (-8070), some (-8610), some (-8720), some (-8630), some (-8540), some (-8480), some (-8420), some (-8390), some (-8370)]
  | .subUrban, true, false, true, 1 => [some (-3550), some (-3690), some (-3590), some (-3380), some (-3230), some (-3190), some (-2830), some (-2660), some (-1220)]
  | .subUrban, true, false, true, 2 => [some 890, some 310, some 20, some (-100), some (-190), some (-540), some (-240), some (-520), some (-150)]
  | .subUrban, true, false, true, 4 => [some 8900, some 14000, some 11300, some 9000, some 7500, some 6600, some 5900, some 5500, some 5400]
  | .subUrban, true, false, true, 5 => [some 630, some 760, some 1110, some 1370, some 1530, some 1650, some 1740, some 1820, some 1870]
  | .subUrban, true, false, true, 6 => [some (-3370), some (-3280), some (-3040), some (-2880), some (-2830), some (-2860), some (-2950), some (-3210), some (-3490)]
  | .subUrban, true, false, false, 0 => [some (-8070), some (-8610), some (-8720), some (-8630), some (-8540), some (-8480), some (-8420), some (-8390), some (-8370)]
  | .subUrban, true, false, false, 1 => [none, none, none, none, none, none, none, none, none]
  | .subUrban, true, false, false, 2 => [some 890, some 310, some 20, some (-100), some (-190), some (-540), some (-240), some (-520), some (-150)]
  | .subUrban, true, false, false, 4 => [some 8900, some 14000, some 11300, some 9000, some 7500, some 6600, some 5900, some 5500, some 5400]
  | .subUrban, true, false, false, 5 => [some 630, some 760, some 1110, some 1370, some 1530, some 1650, some 1740, some 1820, some 1870]
  | .subUrban, true, false, false, 6 => [none, none, none, none, none, none, none, none, none]
  | .subUrban, false, true, true, 0 => [some (-7910), some (-8390), some (-8690), some (-8590), some (-8640), some (-8740), some (-8980), some (-9280), some (-9280)]
  | .subUrban, false, true, true, 1 => [some (-3540), some (-3630), some (-3660), some (-3660), some (-3660), some (-3570), some (-3180), some (-2710), some (-2710)]
  | .subUrban, false, true, true, 2 => [some 910, some 700, some 380, some 300, some 280, some 230, some 100, some 40, some 40]
  | .subUrban, false, true, true, 5 => [some (-1900), some (-1700), some (-1750), some (-1800), some (-1800), some (-1850), some (-1450), some (-1190), some (-1190)]
  | .subUrban, false, true, true, 6 => [some (-2010), some (-1670), some (-1750), some (-1490), some (-1530), some (-1570), some (-1480), some (-1620), some (-1620)]
  | .subUrban, false, true, false, 0 => [some (-7910), some (-8390), some (-8690), some (-8590), some (-8640), some (-8740), some (-8980), some (-9280), some (-9280)]
  | .subUrban, false, true, false, 1 => [none, none, none, none, none, none, none, none, none]
  | .subUrban, false, true, false, 2 => [some 910, some 700, some 380, some 300, some 280, some 230, some 100, some 40, some 40]
  | .subUrban, false, true, false, 5 => [some (-1900), some (-1700), some (-1750), some (-1800), some (-1800), some (-1850), some (-1450), some (-1190), some (-1190)]
  | .subUrban, false, true, false, 6 => [none, none, none, none, none, none, none, none, none]
  | .subUrban, false, false, true, 0 => [some (-7430), some (-7630), some (-7860), some (-7960), some (-7980), some (-8450), some (-8210), some (-8690), some (-8690)]
  | .subUrban, false, false, true, 1 => [some (-2890), some (-2760), some (-2640), some (-2410), some (-2420), some (-2530), some (-2350), some (-2310), some (-2310)]
  | .subUrban, false, false, true, 2 => [some 1490, some 1240, some 1060, some 910, some 980, some 490, some 730, some (-40), some (-40)]
  | .subUrban, false, false, true, 5 => [some 810, some 1060, some 1120, some 1140, some 1290, some 1380, some 1360, some 1380, some 1380]
  | .subUrban, false, false, true, 6 => [some (-3090), some (-2930), some (-2910), some (-2780), some (-2700), some (-3030), some (-2900), some (-3200), some (-3200)]
  | .subUrban, false, false, false, 0 => [some (-7430), some (-7630), some (-7860), some (-7960), some (-7980), some (-8450), some (-8210), some (-8690), some (-8690)]
  | .subUrban, false, false, false, 1 => [none, none, none, none, none, none, none, none, none]
  | .subUrban, false, false, false, 2 => [some 1490, some 1240, some 1060, some 910, some 980, some 490, some 730, some (-40), some (-40)]
  | .subUrban, false, false, false, 5 => [some 810, some 1060, some 1120, some 1140, some 1290, some 1380, some 1360, some 1380, some 1380]
  | .subUrban, false, false, false, 6 => [none, none, none, none, none, none, none, none, none]
  | _, _, _, _, _ => []

/-- Deviation of the logarithm of a large-scale parameter; K-factor in dB. Not recorded (empty list): shadow fading, and the
K-factor of NLoS links. /repo/test/step_4_1_test.py -/
def devRec : Area → (los sBand uplink : Bool) → ℕ → List (Option ℤ)
  | .denseUrban, true, true, true, 0 => [some 800, some 670, some 680, some 660, some 620, some 510, some 450, some 310, some 80]
  | .denseUrban, true, true, true, 1 => [some 480, some 360, some 380, some 320, some 330, some 390, some 400, some 320, some 530]
  | .denseUrban, true, true, true, 2 => [some 700, some 660, some 680, some 640, some 630, some 540, some 520, some 530, some 620]
  | .denseUrban, true, true, true, 4 => [some 3300, some 6600, some 6100, some 4000, some 3000, some 2600, some 2200, some 2100, some 1900]
  | .denseUrban, true, true, true, 5 => [some 30, some 90, some 50, some 30, some 60, some 50, some 50, some 20, some 10]
  | .denseUrban, true, true, true, 6 => [some 500, some 530, some 580, some 510, some 460, some 350, some 310, some 390, some 280]
  | .denseUrban, true, true, false, 0 => [some 800, some 670, some 680, some 660, some 620, some 510, some 450, some 310, some 80]
  | .denseUrban, true, true, false, 1 => [some 0, some 0, some 0, some 0, some 0, some 0, some 0, some 0, some 0]
  | .denseUrban, true, true, false, 2 => [some 700, some 660, some 680, some 640, some 630, some 540, some 520, some 530, some 620]
  | .denseUrban, true, true, false, 4 => [some 3300, some 6600, some 6100, some 4000, some 3000, some 2600, some 2200, some 2100, some 1900]
  | .denseUrban, true, true, false, 5 => [some 30, some 90, some 50, some 30, some 60, some 50, some 50, some 20, some 10]
  | .denseUrban, true, true, false, 6 => [some 0, some 0, some 0, some 0, some 0, some 0, some 0, some 0, some 0]
  | .denseUrban, true, false, true, 0 => [some 900, some 780, some 800, some 720, some 610, some 470, some 390, some 260, some 10]
  | .denseUrban, true, false, true, 1 => [some 540, some 410, some 420, some 340, some 340, some 700, some 400, some 780, some 510]
  | .denseUrban, true, false, true, 2 => [some 820, some 780, some 830, some 780, some 770, some 840, some 640, some 810, some 650]
  | .denseUrban, true, false, true, 4 => [some 2600, some 6800, some 6000, some 3300, some 2200, some 1900, some 1500, some 1600, some 1300]
  | .denseUrban, true, false, true, 5 => [some 50, some 110, some 50, some 40, some 100, some 60, some 70, some 20, some 10]
  | .denseUrban, true, false, true, 6 => [some 550, some 640, some 690, some 570, some 500, some 370, some 310, some 450, some 270]
  | .denseUrban, true, false, false, 0 => [some 900, some 780, some 800, some 720, some 610, some 470, some 390, some 260, some 10]
  | .denseUrban, true, false, false, 1 => [some 0, some 0, some 0, some 0, some 0, some 0, some 0, some 0, some 0]
  | .denseUrban, true, false, false, 2 => [some 820, some 780, some 830, some 780, some 770, some 840, some 640, some 810, some 650]
  | .denseUrban, true, false, false, 4 => [some 2600, some 6800, some 6000, some 3300, some 2200, some 1900, some 1500, some 1600, some 1300]
  | .denseUrban, true, false, false, 5 => [some 50, some 110, some 50, some 40, some 100, some 60, some 70, some 20, some 10]
  | .denseUrban, true, false, false, 6 => [some 0, some 0, some 0, some 0, some 0, some 0, some 0, some 0, some 0]
  | .denseUrban, false, true, true, 0 => [some 820, some 610, some 490, some 490, some 510, some 470, some 440, some 420, some 550]
  | .denseUrban, false, true, true, 1 => [some 870, some 730, some 500, some 500, some 580, some 490, some 650, some 690, some 530]
  | .denseUrban, false, true, true, 2 => [some 1600, some 870, some 640, some 560, some 540, some 680, some 550, some 600, some 600]
  | .denseUrban, false, true, true, 5 => [some 630, some 650, some 420, some 280, some 250, some 160, some 180, some 90, some 170]
  | .denseUrban, false, true, true, 6 => [some 580, some 500, some 400, some 370, some 470, some 430, some 500, some 420, some 500]
  | .denseUrban, false, true, false, 0 => [some 820, some 610, some 490, some 490, some 510, some 470, some 440, some 420, some 550]
  | .denseUrban, false, true, false, 1 => [some 0, some 0, some 0, some 0, some 0, some 0, some 0, some 0, some 0]
  | .denseUrban, false, true, false, 2 => [some 1600, some 870, some 640, some 560, some 540, some 680, some 550, some 600, some 600]
  | .denseUrban, false, true, false, 5 => [some 630, some 650, some 420, some 280, some 250, some 160, some 180, some 90, some 170]
  | .denseUrban, false, true, false, 6 => [some 0, some 0, some 0, some 0, some 0, some 0, some 0, some 0, some 0]
  | .denseUrban, false, false, true, 0 => [some 810, some 610, some 560, some 560, some 570, some 550, some 470, some 420, some 590]
  | .denseUrban, false, false, true, 1 => [some 940, some 790, some 660, some 630, some 560, some 780, some 560, some 760, some 590]
  | .denseUrban, false, false, true, 2 => [some 1440, some 770, some 700, some 600, some 590, some 1270, some 560, some 1040, some 630]
  | .denseUrban, false, false, true, 5 => [some 560, some 550, some 430, some 370, some 320, some 450, some 170, some 140, some 170]
  | .denseUrban, false, false, true, 6 => [some 590, some 510, some 460, some 430, some 430, some 630, some 510, some 740, some 610]
  | .denseUrban, false, false, false, 0 => [some 810, some 610, some 560, some 560, some 570, some 550, some 470, some 420, some 590]
  | .denseUrban, false, false, false, 1 => [some 0, some 0, some 0, some 0, some 0, some 0, some 0, some 0, some 0]
  | .denseUrban, false, false, false, 2 => [some 1440, some 770, some 700, some 600, some 590, some 1270, some 560, some 1040, some 630]
  | .denseUrban, false, false, false, 5 => [some 560, some 550, some 430, some 370, some 320, some 450, some 170, some 140, some 170]
  | .denseUrban, false, false, false, 6 => [some 0, some 0, some 0, some 0, some 0, some 0, some 0, some 0, some 0]
  | .urban, true, true, true, 0 => [some 1000, some 830, some 680, some 480, some 380, some 240, some 180, some 130, some 90]
  | .urban, true, true, true, 1 => [some 790, some 800, some 910, some 1020, some 1170, some 1200, some 1200, some 1450, some 1850]
  | .urban, true, true, true, 2 => [some 740, some 900, some 1300, some 1690, some 2040, some 2540, some 2470, some 2690, some 1660]
  | .urban, true, true, true, 4 => [some 13840, some 13780, some 10420, some 8010, some 8270, some 7260, some 5530, some 4490, some 3140]
  | .urban, true, true, true, 5 => [some 2600, some 3310, some 1100, some 1590, some 1620, some 970, some 1990, some 1820, some 1430]
  | .urban, true, true, true, 6 => [some 2620, some 2960, some 860, some 1190, some 1400, some 850, some 1610, some 1490, some 1090]
  | .urban, true, true, false, 0 => [some 1000, some 830, some 680, some 480, some 380, some 240, some 180, some 130, some 90]
  | .urban, true, true, false, 1 => [some 0, some 0, some 0, some 0, some 0, some 0, some 0, some 0, some 0]
  | .urban, true, true, false, 2 => [some 740, some 900, some 1300, some 1690, some 2040, some 2540, some 2470, some 2690, some 1660]
  | .urban, true, true, false, 4 => [some 13840, some 13780, some 10420, some 8010, some 8270, some 7260, some 5530, some 4490, some 3140]
  | .urban, true, true, false, 5 => [some 2600, some 3310, some 1100, some 1590, some 1620, some 970, some 1990, some 1820, some 1430]
  | .urban, true, true, false, 6 => [some 0, some 0, some 0, some 0, some 0, some 0, some 0, some 0, some 0]
  | .urban, true, false, true, 0 => [some 920, some 790, some 650, some 480, some 460, some 340, some 270, some 190, some 140]
  | .urban, true, false, true, 1 => [some 790, some 870, some 1040, some 1060, some 1120, some 1140, some 1250, some 1350, some 1620]
  | .urban, true, false, true, 2 => [some 770, some 970, some 1580, some 1690, some 2130, some 2510, some 2470, some 2610, some 1700]
  | .urban, true, false, true, 4 => [some 16990, some 18960, some 14230, some 11060, some 11210, some 9470, some 7240, some 5790, some 4250]
  | .urban, true, false, true, 5 => [some 2220, some 3040, some 1330, some 1450, some 1620, some 1060, some 1880, some 1870, some 1190]
  | .urban, true, false, true, 6 => [some 2410, some 2590, some 1020, some 1270, some 1380, some 960, some 1510, some 1490, some 890]
  | .urban, true, false, false, 0 => [some 920, some 790, some 650, some 480, some 460, some 340, some 270, some 190, some 140]
  | .urban, true, false, false, 1 => [some 0, some 0, some 0, some 0, some 0, some 0, some 0, some 0, some 0]
  | .urban, true, false, false, 2 => [some 770, some 970, some 1580, some 1690, some 2130, some 2510, some 2470, some 2610, some 1700]
  | .urban, true, false, false, 4 => [some 16990, some 18960, some 14230, some 11060, some 11210, some 9470, some 7240, some 5790, some 4250]
  | .urban, true, false, false, 5 => [some 2220, some 3040, some 1330, some 1450, some 1620, some 1060, some 1880, some 1870, some 1190]
  | .urban, true, false, false, 6 => [some 0, some 0, some 0, some 0, some 0, some 0, some 0, some 0, some 0]
  | .urban, false, true, true, 0 => [some 1190, some 980, some 840, some 730, some 730, some 720, some 710, some 780, some 670]
  | .urban, false, true, true, 1 => [some 870, some 880, some 1150, some 1130, some 1210, some 990, some 1770, some 1540, some 1400]
  | .urban, false, true, true, 2 => [some 2970, some 2990, some 2710, some 2260, some 2080, some 1930, some 1710, some 960, some 1160]
  | .urban, false, true, true, 5 => [some 2350, some 2110, some 1290, some 1450, some 1070, some 1200, some 1100, some 1350, some 560]
  | .urban, false, true, true, 6 => [some 2770, some 2790, some 1530, some 1670, some 1950, some 1870, some 2720, some 2980, some 4370]
  | .urban, false, true, false, 0 => [some 1190, some 980, some 840, some 730, some 730, some 720, some 710, some 780, some 670]
  | .urban, false, true, false, 1 => [some 0, some 0, some 0, some 0, some 0, some 0, some 0, some 0, some 0]
  | .urban, false, true, false, 2 => [some 2970, some 2990, some 2710, some 2260, some 2080, some 1930, some 1710, some 960, some 1160]
  | .urban, false, true, false, 5 => [some 2350, some 2110, some 1290, some 1450, some 1070, some 1200, some 1100, some 1350, some 560]
  | .urban, false, true, false, 6 => [some 0, some 0, some 0, some 0, some 0, some 0, some 0, some 0, some 0]
  | .urban, false, false, true, 0 => [some 1260, some 990, some 860, some 750, some 770, some 760, some 730, some 790, some 700]
  | .urban, false, false, true, 1 => [some 890, some 890, some 1300, some 1150, some 1230, some 1020, some 1780, some 1550, some 1400]
  | .urban, false, false, true, 2 => [some 2990, some 3120, some 2690, some 2450, some 2170, some 1930, some 1720, some 1510, some 1200]
  | .urban, false, false, true, 5 => [some 2660, some 2030, some 1540, some 1020, some 1610, some 1840, some 1810, some 1350, some 600]
  | .urban, false, false, true, 6 => [some 2760, some 2760, some 1540, some 1770, some 2360, some 2330, some 2840, some 2870, some 4270]
  | .urban, false, false, false, 0 => [some 1260, some 990, some 860, some 750, some 770, some 760, some 730, some 790, some 700]
  | .urban, false, false, false, 1 => [some 0, some 0, some 0, some 0, some 0, some 0, some 0, some 0, some 0]
  | .urban, false, false, false, 2 => [some 2990, some 3120, some 2690, some 2450, some 2170, some 1930, some 1720, some 1510, some 1200]
  | .urban, false, false, false, 5 => [some 2660, some 2030, some 1540, some 1020, some 1610, some 1840, some 1810, some 1350, some 600]
  | .urban, false, false, false, 6 => [some 0, some 0, some 0, some 0, some 0, some 0, some 0, some 0, some 0]
  | .subUrban, true, true, true, 0 => [some 990, some 960, some 790, some 810, some 1120, some 1230, some 550, some 630, some 630]
  | .subUrban, true, true, true, 1 => [some 1620, some 1740, some 1720, some 1600, some 1490, some 1430, some 1360, some 1260, some 1260]
  | .subUrban, true, true, true, 2 => [some 1840, some 1940, some 1750, some 1820, some 1870, some 1920, some 1160, some 1090, some 1090]
  | .subUrban, true, true, true, 4 => [some 6260, some 10320, some 16340, some 15630, some 14220, some 14190, some 5700, some 9910, some 9910]
  | .subUrban, true, true, true, 5 => [some 620, some 810, some 570, some 860, some 1050, some 1230, some 540, some 670, some 670]
  | .subUrban, true, true, true, 6 => [some 960, some 950, some 490, some 790, some 970, some 1170, some 620, some 760, some 760]
  | .subUrban, true, true, false, 0 => [some 990, some 960, some 790, some 810, some 1120, some 1230, some 550, some 630, some 630]
  | .subUrban, true, true, false, 1 => [some 0, some 0, some 0, some 0, some 0, some 0, some 0, some 0, some 0]
  | .subUrban, true, true, false, 2 => [some 1840, some 1940, some 1750, some 1820, some 1870, some 1920, some 1160, some 1090, some 1090]
  | .subUrban, true, true, false, 4 => [some 6260, some 10320, some 16340, some 15630, some 14220, some 14190, some 5700, some 9910, some 9910]
  | .subUrban, true, true, false, 5 => [some 620, some 810, some 570, some 860, some 1050, some 1230, some 540, some 670, some 670]
  | .subUrban, true, true, false, 6 => [some 0, some 0, some 0, some 0, some 0, some 0, some 0, some 0, some 0]
  | .subUrban, true, false, true, 0 => [some 460, some 450, some 280, some 170, some 140, some 150, some 90, some 50, some 20]
  | .subUrban, true, false, true, 1 => [some 480, some 410, some 410, some 350, some 350, some 430, some 330, some 440, some 310]
  | .subUrban, true, false, true, 2 => [some 670, some 780, some 750, some 650, some 550, some 960, some 430, some 930, some 440]
  | .subUrban, true, false, true, 4 => [some 4400, some 4600, some 3700, some 3500, some 3000, some 2600, some 1700, some 700, some 300]
  | .subUrban, true, false, true, 5 => [some 350, some 300, some 280, some 230, some 230, some 170, some 110, some 50, some 20]
  | .subUrban, true, false, true, 6 => [some 280, some 270, some 260, some 210, some 180, some 170, some 100, some 70, some 240]
  | .subUrban, true, false, false, 0 => [some 460, some 450, some 280, some 170, some 140, some 150, some 90, some 50, some 20]
  | .subUrban, true, false, false, 1 => [some 0, some 0, some 0, some 0, some 0, some 0, some 0, some 0, some 0]
  | .subUrban, true, false, false, 2 => [some 670, some 780, some 750, some 650, some 550, some 960, some 430, some 930, some 440]
  | .subUrban, true, false, false, 4 => [some 4400, some 4600, some 3700, some 3500, some 3000, some 2600, some 1700, some 700, some 300]
  | .subUrban, true, false, false, 5 => [some 350, some 300, some 280, some 230, some 230, some 170, some 110, some 50, some 20]
  | .subUrban, true, false, false, 6 => [some 0, some 0, some 0, some 0, some 0, some 0, some 0, some 0, some 0]
  | .subUrban, false, true, true, 0 => [some 1420, some 1460, some 1460, some 1210, some 1180, some 1130, some 1370, some 1500, some 1500]
  | .subUrban, false, true, true, 1 => [some 1800, some 1430, some 1680, some 1480, some 1550, some 1380, some 1620, some 1630, some 1630]
  | .subUrban, false, true, true, 2 => [some 1700, some 1330, some 1520, some 1430, some 1440, some 1440, some 1240, some 1040, some 1040]
  | .subUrban, false, true, true, 5 => [some 1630, some 1240, some 1540, some 1250, some 1210, some 1200, some 1380, some 1580, some 1580]
  | .subUrban, false, true, true, 6 => [some 1790, some 1310, some 1420, some 1280, some 1400, some 1240, some 980, some 880, some 880]
  | .subUrban, false, true, false, 0 => [some 1420, some 1460, some 1460, some 1210, some 1180, some 1130, some 1370, some 1500, some 1500]
  | .subUrban, false, true, false, 1 => [some 0, some 0, some 0, some 0, some 0, some 0, some 0, some 0, some 0]
  | .subUrban, false, true, false, 2 => [some 1700, some 1330, some 1520, some 1430, some 1440, some 1440, some 1240, some 1040, some 1040]
  | .subUrban, false, true, false, 5 => [some 1630, some 1240, some 1540, some 1250, some 1210, some 1200, some 1380, some 1580, some 1580]
  | .subUrban, false, true, false, 6 => [some 0, some 0, some 0, some 0, some 0, some 0, some 0, some 0, some 0]
  | .subUrban, false, false, true, 0 => [some 500, some 610, some 560, some 580, some 590, some 470, some 360, some 290, some 290]
  | .subUrban, false, false, true, 1 => [some 410, some 410, some 410, some 520, some 700, some 500, some 580, some 730, some 730]
  | .subUrban, false, false, true, 2 => [some 400, some 820, some 710, some 550, some 580, some 1370, some 490, some 1480, some 1480]
  | .subUrban, false, false, true, 5 => [some 360, some 410, some 400, some 390, some 350, some 360, some 290, some 200, some 200]
  | .subUrban, false, false, true, 6 => [some 320, some 470, some 460, some 540, some 450, some 360, some 420, some 300, some 300]
  | .subUrban, false, false, false, 0 => [some 500, some 610, some 560, some 580, some 590, some 470, some 360, some 290, some 290]
  | .subUrban, false, false, false, 1 => [some 0, some 0, some 0, some 0, some 0, some 0, some 0, some 0, some 0]
  | .subUrban, false, false, false, 2 => [some 400, some 820, some 710, some 550, some 580, some 1370, some 490, some 1480, some 1480]
  | .subUrban, false, false, false, 5 => [some 360, some 410, some 400, some 390, some 350, some 360, some 290, some 200, some 200]
  | .subUrban, false, false, false, 6 => [some 0, some 0, some 0, some 0, some 0, some 0, some 0, some 0, some 0]
  | _, _, _, _, _ => []

/-- Cross-correlation of two large-scale parameters, as (first, second, thousandths by elevation).
/repo/test/step_4_2_test.py -/
def crossRec : Area → (los sBand uplink : Bool) → List (ℕ × ℕ × List ℤ)
  | .denseUrban, true, true, true =>
    [(0, 3, .replicate 9 (-400)),
     (0, 4, .replicate 9 (-400)),
     (1, 0, .replicate 9 400),
     (1, 2, .replicate 9 0),
     (1, 3, .replicate 9 (-500)),
     (1, 4, .replicate 9 0),
     (2, 0, .replicate 9 800),
     (2, 3, .replicate 9 (-500)),
     (2, 4, .replicate 9 (-200)),
     (3, 4, .replicate 9 0),
     (5, 0, .replicate 9 0),
     (5, 1, .replicate 9 0),
     (5, 2, .replicate 9 400),
     (5, 3, .replicate 9 (-800)),
     (5, 4, .replicate 9 0),
     (6, 0, .replicate 9 (-200)),
     (6, 1, .replicate 9 500),
     (6, 2, .replicate 9 (-300)),
     (6, 3, .replicate 9 0),
     (6, 4, .replicate 9 0),
     (6, 5, .replicate 9 0)]
  | .denseUrban, true, true, false =>
    [(0, 3, .replicate 9 (-400)),
     (0, 4, .replicate 9 (-400)),
     (1, 0, .replicate 9 0),
     (1, 2, .replicate 9 0),
     (1, 3, .replicate 9 0),
     (1, 4, .replicate 9 0),
     (2, 0, .replicate 9 800),
     (2, 3, .replicate 9 (-500)),
     (2, 4, .replicate 9 (-200)),
     (3, 4, .replicate 9 0),
     (5, 0, .replicate 9 0),
     (5, 1, .replicate 9 0),
     (5, 2, .replicate 9 400),
     (5, 3, .replicate 9 (-800)),
     (5, 4, .replicate 9 0),
     (6, 0, .replicate 9 0),
     (6, 1, .replicate 9 0),
     (6, 2, .replicate 9 0),
     (6, 3, .replicate 9 0),
     (6, 4, .replicate 9 0),
     (6, 5, .replicate 9 0)]
  | .denseUrban, true, false, true =>
    [(0, 3, .replicate 9 (-400)),
     (0, 4, .replicate 9 (-400)),
     (1, 0, .replicate 9 400),
     (1, 2, .replicate 9 0),
     (1, 3, .replicate 9 (-500)),
     (1, 4, .replicate 9 0),
     (2, 0, .replicate 9 800),
     (2, 3, .replicate 9 (-500)),
     (2, 4, .replicate 9 (-200)),
     (3, 4, .replicate 9 0),
     (5, 0, .replicate 9 0),
     (5, 1, .replicate 9 0),
     (5, 2, .replicate 9 400),
     (5, 3, .replicate 9 (-800)),
     (5, 4, .replicate 9 0),
     (6, 0, .replicate 9 (-200)),
     (6, 1, .replicate 9 500),
     (6, 2, .replicate 9 (-300)),
     (6, 3, .replicate 9 0),
     (6, 4, .replicate 9 0),
     (6, 5, .replicate 9 0)]
  | .denseUrban, true, false, false =>
    [(0, 3, .replicate 9 (-400)),
     (0, 4, .replicate 9 (-400)),
     (1, 0, .replicate 9 0),
     (1, 2, .replicate 9 0),
     (1, 3, .replicate 9 0),
     (1, 4, .replicate 9 0),
     (2, 0, .replicate 9 800),
     (2, 3, .replicate 9 (-500)),
     (2, 4, .replicate 9 (-200)),
     (3, 4, .replicate 9 0),
     (5, 0, .replicate 9 0),
     (5, 1, .replicate 9 0),
     (5, 2, .replicate 9 400),
     (5, 3, .replicate 9 (-800)),
     (5, 4, .replicate 9 0),
     (6, 0, .replicate 9 0),
     (6, 1, .replicate 9 0),
     (6, 2, .replicate 9 0),
     (6, 3, .replicate 9 0),
     (6, 4, .replicate 9 0),
     (6, 5, .replicate 9 0)]
  | .denseUrban, false, true, true =>
    [(0, 3, .replicate 9 (-400)),
     (0, 4, .replicate 9 0),
     (1, 0, .replicate 9 400),
     (1, 2, .replicate 9 400),
     (1, 3, .replicate 9 (-600)),
     (1, 4, .replicate 9 0),
     (2, 0, .replicate 9 600),
     (2, 3, .replicate 9 0),
     (2, 4, .replicate 9 0),
     (3, 4, .replicate 9 0),
     (5, 0, .replicate 9 0),
     (5, 1, .replicate 9 (-100)),
     (5, 2, .replicate 9 0),
     (5, 3, .replicate 9 (-400)),
     (5, 4, .replicate 9 0),
     (6, 0, .replicate 9 (-500)),
     (6, 1, .replicate 9 500),
     (6, 2, .replicate 9 0),
     (6, 3, .replicate 9 0),
     (6, 4, .replicate 9 0),
     (6, 5, .replicate 9 0)]
  | .denseUrban, false, true, false =>
    [(0, 3, .replicate 9 (-400)),
     (0, 4, .replicate 9 0),
     (1, 0, .replicate 9 0),
     (1, 2, .replicate 9 0),
     (1, 3, .replicate 9 0),
     (1, 4, .replicate 9 0),
     (2, 0, .replicate 9 600),
     (2, 3, .replicate 9 0),
     (2, 4, .replicate 9 0),
     (3, 4, .replicate 9 0),
     (5, 0, .replicate 9 0),
     (5, 1, .replicate 9 0),
     (5, 2, .replicate 9 0),
     (5, 3, .replicate 9 (-400)),
     (5, 4, .replicate 9 0),
     (6, 0, .replicate 9 0),
     (6, 1, .replicate 9 0),
     (6, 2, .replicate 9 0),
     (6, 3, .replicate 9 0),
     (6, 4, .replicate 9 0),
     (6, 5, .replicate 9 0)]
  | .denseUrban, false, false, true =>
    [(0, 3, .replicate 9 (-400)),
     (0, 4, .replicate 9 0),
     (1, 0, .replicate 9 400),
     (1, 2, .replicate 9 400),
     (1, 3, .replicate 9 (-600)),
     (1, 4, .replicate 9 0),
     (2, 0, .replicate 9 600),
     (2, 3, .replicate 9 0),
     (2, 4, .replicate 9 0),
     (3, 4, .replicate 9 0),
     (5, 0, .replicate 9 0),
     (5, 1, .replicate 9 (-100)),
     (5, 2, .replicate 9 0),
     (5, 3, .replicate 9 (-400)),
     (5, 4, .replicate 9 0),
     (6, 0, .replicate 9 (-500)),
     (6, 1, .replicate 9 500),
     (6, 2, .replicate 9 0),
     (6, 3, .replicate 9 0),
     (6, 4, .replicate 9 0),
     (6, 5, .replicate 9 0)]
  | .denseUrban, false, false, false =>
    [(0, 3, .replicate 9 (-400)),
     (0, 4, .replicate 9 0),
     (1, 0, .replicate 9 0),
     (1, 2, .replicate 9 0),
     (1, 3, .replicate 9 0),
     (1, 4, .replicate 9 0),
     (2, 0, .replicate 9 600),
     (2, 3, .replicate 9 0),
     (2, 4, .replicate 9 0),
     (3, 4, .replicate 9 0),
     (5, 0, .replicate 9 0),
     (5, 1, .replicate 9 0),
     (5, 2, .replicate 9 0),
     (5, 3, .replicate 9 (-400)),
     (5, 4, .replicate 9 0),
     (6, 0, .replicate 9 0),
     (6, 1, .replicate 9 0),
     (6, 2, .replicate 9 0),
     (6, 3, .replicate 9 0),
     (6, 4, .replicate 9 0),
     (6, 5, .replicate 9 0)]
  | .urban, true, true, true =>
    [(0, 3, .replicate 9 (-400)),
     (0, 4, .replicate 9 (-400)),
     (1, 0, .replicate 9 400),
     (1, 2, .replicate 9 0),
     (1, 3, .replicate 9 (-500)),
     (1, 4, .replicate 9 0),
     (2, 0, .replicate 9 800),
     (2, 3, .replicate 9 (-500)),
     (2, 4, .replicate 9 (-200)),
     (3, 4, .replicate 9 0),
     (5, 0, .replicate 9 0),
     (5, 1, .replicate 9 0),
     (5, 2, .replicate 9 400),
     (5, 3, .replicate 9 (-800)),
     (5, 4, .replicate 9 0),
     (6, 0, .replicate 9 (-200)),
     (6, 1, .replicate 9 500),
     (6, 2, .replicate 9 (-300)),
     (6, 3, .replicate 9 0),
     (6, 4, .replicate 9 0),
     (6, 5, .replicate 9 0)]
  | .urban, true, true, false =>
    [(0, 3, .replicate 9 (-400)),
     (0, 4, .replicate 9 (-400)),
     (1, 0, .replicate 9 0),
     (1, 2, .replicate 9 0),
     (1, 3, .replicate 9 0),
     (1, 4, .replicate 9 0),
     (2, 0, .replicate 9 800),
     (2, 3, .replicate 9 (-500)),
     (2, 4, .replicate 9 (-200)),
     (3, 4, .replicate 9 0),
     (5, 0, .replicate 9 0),
     (5, 1, .replicate 9 0),
     (5, 2, .replicate 9 400),
     (5, 3, .replicate 9 (-800)),
     (5, 4, .replicate 9 0),
     (6, 0, .replicate 9 0),
     (6, 1, .replicate 9 0),
     (6, 2, .replicate 9 0),
     (6, 3, .replicate 9 0),
     (6, 4, .replicate 9 0),
     (6, 5, .replicate 9 0)]
  | .urban, true, false, true =>
    [(0, 3, .replicate 9 (-400)),
     (0, 4, .replicate 9 (-400)),
     (1, 0, .replicate 9 400),
     (1, 2, .replicate 9 0),
     (1, 3, .replicate 9 (-500)),
     (1, 4, .replicate 9 0),
     (2, 0, .replicate 9 800),
     (2, 3, .replicate 9 (-500)),
     (2, 4, .replicate 9 (-200)),
     (3, 4, .replicate 9 0),
     (5, 0, .replicate 9 0),
     (5, 1, .replicate 9 0),
     (5, 2, .replicate 9 400),
     (5, 3, .replicate 9 (-800)),
     (5, 4, .replicate 9 0),
     (6, 0, .replicate 9 (-200)),
     (6, 1, .replicate 9 500),
     (6, 2, .replicate 9 (-300)),
     (6, 3, .replicate 9 0),
     (6, 4, .replicate 9 0),
     (6, 5, .replicate 9 0)]
  | .urban, true, false, false =>
    [(0, 3, .replicate 9 (-400)),
     (0, 4, .replicate 9 (-400)),
     (1, 0, .replicate 9 0),
     (1, 2, .replicate 9 0),
     (1, 3, .replicate 9 0),
     (1, 4, .replicate 9 0),
     (2, 0, .replicate 9 800),
     (2, 3, .replicate 9 (-500)),
     (2, 4, .replicate 9 (-200)),
     (3, 4, .replicate 9 0),
     (5, 0, .replicate 9 0),
     (5, 1, .replicate 9 0),
     (5, 2, .replicate 9 400),
     (5, 3, .replicate 9 (-800)),
     (5, 4, .replicate 9 0),
     (6, 0, .replicate 9 0),
     (6, 1, .replicate 9 0),
     (6, 2, .replicate 9 0),
     (6, 3, .replicate 9 0),
     (6, 4, .replicate 9 0),
     (6, 5, .replicate 9 0)]
  | .urban, false, true, true =>
    [(0, 3, [-220, -260, -210, -250, -210, -190, -190, -200, -200]),
     (0, 4, .replicate 9 0),
     (1, 0, [540, 460, 560, 520, 600, 590, 600, 570, 640]),
     (1, 2, [410, 400, 330, 370, 230, 230, 220, 230, 210]),
     (1, 3, [-480, -530, -520, -520, -540, -510, -500, -480, -430]),
     (1, 4, .replicate 9 0),
     (2, 0, [380, 360, 270, 290, 210, 240, 220, 240, 240]),
     (2, 3, [-50, -40, -40, -40, -30, -50, -20, -10, 0]),
     (2, 4, .replicate 9 0),
     (3, 4, .replicate 9 0),
     (5, 0, [50, 90, 90, 90, -30, -150, -130, -290, -190]),
     (5, 1, [50, 110, 130, 140, -20, -110, -130, -260, -220]),
     (5, 2, [40, 130, 160, 130, 130, 140, -20, -200, -460]),
     (5, 3, [-310, -330, -330, -330, -380, -390, -370, -370, -360]),
     (5, 4, .replicate 9 0),
     (6, 0, [690, 720, 680, 680, 640, 650, 640, 610, 530]),
     (6, 1, [520, 480, 600, 560, 620, 600, 650, 590, 640]),
     (6, 2, [400, 390, 340, 370, 310, 280, 230, 210, 280]),
     (6, 3, [-20, 0, 10, 0, 10, 10, -20, -80, -120]),
     (6, 4, .replicate 9 0),
     (6, 5, [-30, 40, 70, 70, -10, -120, -150, -340, -360])]
  | .urban, false, true, false =>
    [(0, 3, [-220, -260, -210, -250, -210, -190, -190, -200, -200]),
     (0, 4, .replicate 9 0),
     (1, 0, .replicate 9 0),
     (1, 2, .replicate 9 0),
     (1, 3, .replicate 9 0),
     (1, 4, .replicate 9 0),
     (2, 0, [380, 360, 270, 290, 210, 240, 220, 240, 240]),
     (2, 3, [-50, -40, -40, -40, -30, -50, -20, -10, 0]),
     (2, 4, .replicate 9 0),
     (3, 4, .replicate 9 0),
     (5, 0, [50, 90, 90, 90, -30, -150, -130, -290, -190]),
     (5, 1, .replicate 9 0),
     (5, 2, [40, 130, 160, 130, 130, 140, -20, -200, -460]),
     (5, 3, [-310, -330, -330, -330, -380, -390, -370, -370, -360]),
     (5, 4, .replicate 9 0),
     (6, 0, .replicate 9 0),
     (6, 1, .replicate 9 0),
     (6, 2, .replicate 9 0),
     (6, 3, .replicate 9 0),
     (6, 4, .replicate 9 0),
     (6, 5, .replicate 9 0)]
  | .urban, false, false, true =>
    [(0, 3, [-210, -250, -210, -260, -250, -200, -190, -200, -190]),
     (0, 4, .replicate 9 0),
     (1, 0, [550, 470, 550, 520, 550, 570, 610, 590, 650]),
     (1, 2, [410, 420, 340, 380, 280, 200, 260, 230, 310]),
     (1, 3, [-480, -520, -520, -530, -570, -530, -500, -490, -380]),
     (1, 4, .replicate 9 0),
     (2, 0, [380, 370, 290, 300, 230, 210, 230, 230, 360]),
     (2, 3, [-50, -40, -40, -40, -30, -50, -30, -10, -30]),
     (2, 4, .replicate 9 0),
     (3, 4, .replicate 9 0),
     (5, 0, [60, 100, 110, 130, -40, -140, -110, -240, -190]),
     (5, 1, [60, 120, 140, 180, 10, -100, -110, -240, -200]),
     (5, 2, [50, 130, 160, 160, 180, 210, 20, -130, -350]),
     (5, 3, [-310, -320, -330, -330, -410, -400, -360, -370, -330]),
     (5, 4, .replicate 9 0),
     (6, 0, [680, 720, 680, 670, 650, 670, 630, 610, 540]),
     (6, 1, [520, 480, 590, 550, 540, 600, 640, 600, 600]),
     (6, 2, [400, 410, 340, 380, 310, 250, 230, 220, 290]),
     (6, 3, [-20, 0, 10, 10, 30, 30, -20, -50, -120]),
     (6, 4, .replicate 9 0),
     (6, 5, [-20, 40, 90, 110, 0, -90, -150, -290, -330])]
  | .urban, false, false, false =>
    [(0, 3, [-210, -250, -210, -260, -250, -200, -190, -200, -190]),
     (0, 4, .replicate 9 0),
     (1, 0, .replicate 9 0),
     (1, 2, .replicate 9 0),
     (1, 3, .replicate 9 0),
     (1, 4, .replicate 9 0),
     (2, 0, [380, 370, 290, 300, 230, 210, 230, 230, 360]),
     (2, 3, [-50, -40, -40, -40, -30, -50, -30, -10, -30]),
     (2, 4, .replicate 9 0),
     (3, 4, .replicate 9 0),
     (5, 0, [60, 100, 110, 130, -40, -140, -110, -240, -190]),
     (5, 1, .replicate 9 0),
     (5, 2, [50, 130, 160, 160, 180, 210, 20, -130, -350]),
     (5, 3, [-310, -320, -330, -330, -410, -400, -360, -370, -330]),
     (5, 4, .replicate 9 0),
     (6, 0, .replicate 9 0),
     (6, 1, .replicate 9 0),
     (6, 2, .replicate 9 0),
     (6, 3, .replicate 9 0),
     (6, 4, .replicate 9 0),
     (6, 5, .replicate 9 0)]
  | .subUrban, true, true, true =>
    [(0, 3, .replicate 9 (-400)),
     (0, 4, .replicate 9 (-400)),
     (1, 0, .replicate 9 400),
     (1, 2, .replicate 9 0),
     (1, 3, .replicate 9 (-500)),
     (1, 4, .replicate 9 0),
     (2, 0, .replicate 9 800),
     (2, 3, .replicate 9 (-500)),
     (2, 4, .replicate 9 (-200)),
     (3, 4, .replicate 9 0),
     (5, 0, .replicate 9 0),
     (5, 1, .replicate 9 0),
     (5, 2, .replicate 9 400),
     (5, 3, .replicate 9 (-800)),
     (5, 4, .replicate 9 0),
     (6, 0, .replicate 9 (-200)),
     (6, 1, .replicate 9 500),
     (6, 2, .replicate 9 (-300)),
     (6, 3, .replicate 9 0),
     (6, 4, .replicate 9 0),
     (6, 5, .replicate 9 0)]
  | .subUrban, true, true, false =>
    [(0, 3, .replicate 9 (-400)),
     (0, 4, .replicate 9 (-400)),
     (1, 0, .replicate 9 0),
     (1, 2, .replicate 9 0),
     (1, 3, .replicate 9 0),
     (1, 4, .replicate 9 0),
     (2, 0, .replicate 9 800),
     (2, 3, .replicate 9 (-500)),
     (2, 4, .replicate 9 (-200)),
     (3, 4, .replicate 9 0),
     (5, 0, .replicate 9 0),
     (5, 1, .replicate 9 0),
     (5, 2, .replicate 9 400),
     (5, 3, .replicate 9 (-800)),
     (5, 4, .replicate 9 0),
     (6, 0, .replicate 9 0),
     (6, 1, .replicate 9 0),
     (6, 2, .replicate 9 0),
     (6, 3, .replicate 9 0),
     (6, 4, .replicate 9 0),
     (6, 5, .replicate 9 0)]
  | .subUrban, true, false, true =>
    [(0, 3, .replicate 9 (-400)),
     (0, 4, .replicate 9 (-400)),
     (1, 0, .replicate 9 400),
     (1, 2, .replicate 9 0),
     (1, 3, .replicate 9 (-500)),
     (1, 4, .replicate 9 0),
     (2, 0, .replicate 9 800),
     (2, 3, .replicate 9 (-500)),
     (2, 4, .replicate 9 (-200)),
     (3, 4, .replicate 9 0),
     (5, 0, .replicate 9 0),
     (5, 1, .replicate 9 0),
     (5, 2, .replicate 9 400),
     (5, 3, .replicate 9 (-800)),
     (5, 4, .replicate 9 0),
     (6, 0, .replicate 9 (-200)),
     (6, 1, .replicate 9 500),
     (6, 2, .replicate 9 (-300)),
     (6, 3, .replicate 9 0),
     (6, 4, .replicate 9 0),
     (6, 5, .replicate 9 0)]
  | .subUrban, true, false, false =>
    [(0, 3, .replicate 9 (-400)),
     (0, 4, .replicate 9 (-400)),
     (1, 0, .replicate 9 0),
     (1, 2, .replicate 9 0),
     (1, 3, .replicate 9 0),
     (1, 4, .replicate 9 0),
     (2, 0, .replicate 9 800),
     (2, 3, .replicate 9 (-500)),
     (2, 4, .replicate 9 (-200)),
     (3, 4, .replicate 9 0),
     (5, 0, .replicate 9 0),
     (5, 1, .replicate 9 0),
     (5, 2, .replicate 9 400),
     (5, 3, .replicate 9 (-800)),
     (5, 4, .replicate 9 0),
     (6, 0, .replicate 9 0),
     (6, 1, .replicate 9 0),
     (6, 2, .replicate 9 0),
     (6, 3, .replicate 9 0),
     (6, 4, .replicate 9 0),
     (6, 5, .replicate 9 0)]
  | .subUrban, false, true, true =>
    [(0, 3, .replicate 9 (-400)),
     (0, 4, .replicate 9 0),
     (1, 0, .replicate 9 400),
     (1, 2, .replicate 9 400),
     (1, 3, .replicate 9 (-600)),
     (1, 4, .replicate 9 0),
     (2, 0, .replicate 9 600),
     (2, 3, .replicate 9 0),
     (2, 4, .replicate 9 0),
     (3, 4, .replicate 9 0),
     (5, 0, .replicate 9 0),
     (5, 1, .replicate 9 (-100)),
     (5, 2, .replicate 9 0),
     (5, 3, .replicate 9 (-400)),
     (5, 4, .replicate 9 0),
     (6, 0, .replicate 9 (-500)),
     (6, 1, .replicate 9 500),
     (6, 2, .replicate 9 0),
     (6, 3, .replicate 9 0),
     (6, 4, .replicate 9 0),
     (6, 5, .replicate 9 0)]
  | .subUrban, false, true, false =>
    [(0, 3, .replicate 9 (-400)),
     (0, 4, .replicate 9 0),
     (1, 0, .replicate 9 0),
     (1, 2, .replicate 9 0),
     (1, 3, .replicate 9 0),
     (1, 4, .replicate 9 0),
     (2, 0, .replicate 9 600),
     (2, 3, .replicate 9 0),
     (2, 4, .replicate 9 0),
     (3, 4, .replicate 9 0),
     (5, 0, .replicate 9 0),
     (5, 1, .replicate 9 0),
     (5, 2, .replicate 9 0),
     (5, 3, .replicate 9 (-400)),
     (5, 4, .replicate 9 0),
     (6, 0, .replicate 9 0),
     (6, 1, .replicate 9 0),
     (6, 2, .replicate 9 0),
     (6, 3, .replicate 9 0),
     (6, 4, .replicate 9 0),
     (6, 5, .replicate 9 0)]
  | .subUrban, false, false, true =>
    [(0, 3, .replicate 9 (-400)),
     (0, 4, .replicate 9 0),
     (1, 0, .replicate 9 400),
     (1, 2, .replicate 9 400),
     (1, 3, .replicate 9 (-600)),
     (1, 4, .replicate 9 0),
     (2, 0, .replicate 9 600),
     (2, 3, .replicate 9 0),
     (2, 4, .replicate 9 0),
     (3, 4, .replicate 9 0),
     (5, 0, .replicate 9 0),
     (5, 1, .replicate 9 (-100)),
     (5, 2, .replicate 9 0),
     (5, 3, .replicate 9 (-400)),
     (5, 4, .replicate 9 0),
     (6, 0, .replicate 9 (-500)),
     (6, 1, .replicate 9 500),
     (6, 2, .replicate 9 0),
     (6, 3, .replicate 9 0),
     (6, 4, .replicate 9 0),
     (6, 5, .replicate 9 0)]
  | .subUrban, false, false, false =>
    [(0, 3, .replicate 9 (-400)),
     (0, 4, .replicate 9 0),
     (1, 0, .replicate 9 0),
     (1, 2, .replicate 9 0),
     (1, 3, .replicate 9 0),
     (1, 4, .replicate 9 0),
     (2, 0, .replicate 9 600),
     (2, 3, .replicate 9 0),
     (2, 4, .replicate 9 0),
     (3, 4, .replicate 9 0),
     (5, 0, .replicate 9 0),
     (5, 1, .replicate 9 0),
     (5, 2, .replicate 9 0),
     (5, 3, .replicate 9 (-400)),
     (5, 4, .replicate 9 0),
     (6, 0, .replicate 9 0),
     (6, 1, .replicate 9 0),
     (6, 2, .replicate 9 0),
     (6, 3, .replicate 9 0),
     (6, 4, .replicate 9 0),
     (6, 5, .replicate 9 0)]

/-- Correlation distance in mm; the same in all areas, bands, directions and at every elevation.
/repo/test/step_4_3_test.py -/
def corrDistRec (los : Bool) : List ℤ :=
  if los then [30000, 18000, 15000, 37000, 12000, 15000, 15000] else [40000, 50000, 50000, 50000, 1000, 50000, 50000]

/-- LoS probability in thousandths, TR 38.811 Table 6.6.1-1. /repo/test/step_2_test.py -/
def losProbRec : Area → List ℤ
  | .denseUrban => [282, 331, 398, 468, 537, 612, 738, 820, 981]
  | .urban => [246, 386, 493, 613, 726, 805, 919, 968, 992]
  | .subUrban => [782, 869, 919, 929, 935, 940, 949, 952, 998]

/-- Delay scaling parameter r_tau. /repo/test/step_5_test.py 43, 138-154, 239 -/
def rTauRec : Area → (los sBand : Bool) → List ℤ
  | .subUrban, true, true => [2200, 3360, 3500, 2810, 2390, 2730, 2070, 2040, 2040]
  | .subUrban, false, true => [2280, 2330, 2430, 2260, 2710, 2100, 2190, 2060, 2060]
  | _, true, _ => List.replicate 9 2500
  | _, false, _ => List.replicate 9 2300

/-- Clutter loss of NLoS links in dB/1000, TR 38.811 Tables 6.6.2-1 to 6.6.2-3; the argument is S band. -/
def clutterRec : Area → (sBand : Bool) → List ℤ
  | .subUrban, true => [19520, 18170, 18420, 18280, 18630, 17680, 16500, 16300, 16300]
  | .subUrban, false => [29500, 24600, 21900, 20000, 18700, 17800, 17200, 16900, 16800]
  | _, true => [34300, 30900, 29000, 27700, 26800, 26200, 25800, 25500, 25500]
  | _, false => [44300, 39900, 37500, 35800, 34600, 33800, 33300, 33000, 32900]

/-- Shadow fading deviation in dB/1000, TR 38.811 Tables 6.6.2-1 to 6.6.2-3; the arguments are LoS and S band. -/
def shadowRec : Area → (los sBand : Bool) → List ℤ
  | .denseUrban, true, true => [3500, 3400, 2900, 3000, 3100, 2700, 2500, 2300, 1200]
  | .denseUrban, false, true => [15500, 13900, 12400, 11700, 10600, 10500, 10100, 9200, 9200]
  | .denseUrban, true, false => [2900, 2400, 2700, 2400, 2400, 2700, 2600, 2800, 600]
  | .denseUrban, false, false => [17100, 17100, 15600, 14600, 14200, 12600, 12100, 12300, 12300]
  | .urban, true, _ => [4000, 4000, 4000, 4000, 4000, 4000, 4000, 4000, 4000]
  | .urban, false, _ => [6000, 6000, 6000, 6000, 6000, 6000, 6000, 6000, 6000]
  | .subUrban, true, true => [1790, 1140, 1140, 920, 1420, 1560, 850, 720, 720]
  | .subUrban, false, true => [8930, 9080, 8780, 10250, 10560, 10740, 10170, 11520, 11520]
  | .subUrban, true, false => [1900, 1600, 1900, 2300, 2700, 3100, 3000, 3600, 400]
  | .subUrban, false, false => [10700, 10000, 11200, 11600, 11800, 10800, 10800, 10800, 10800]

end OpenNTN.Spec
