/-
Tables of `/repo/OpenNTN/models/TDL-*.json` and `/repo/OpenNTN/models/CDL-*.json`, one definition per file.
Generated by `/verif/tools/gen_delay_tables.py` from the JSON text.

Simplification: numbers are stored exactly as integer multiples of 1/10000 (all values have at most four decimals).
-/
namespace OpenNTN

/-- Content of a TDL file (`/repo/OpenNTN/models/TDL-*.json`). -/
structure TdlTable where
  los : Bool
  numClusters : Nat
  scaleDelays : Bool
  delays : List Int
  powers : List Int

/-- Content of a CDL file (`/repo/OpenNTN/models/CDL-*.json`). -/
structure CdlTable where
  los : Bool
  numClusters : Nat
  cASD : Int
  cASA : Int
  cZSD : Int
  cZSA : Int
  xpr : Int
  delays : List Int
  powers : List Int
  aod : List Int
  aoa : List Int
  zod : List Int
  zoa : List Int

/-- `/repo/OpenNTN/models/TDL-A.json`. -/
def tdlA : TdlTable where
  los := false
  numClusters := 3
  scaleDelays := true
  delays := [0, 10811, 28416]
  powers := [0, (-46750), (-64820)]

/-- `/repo/OpenNTN/models/TDL-B.json`. -/
def tdlB : TdlTable where
  los := false
  numClusters := 4
  scaleDelays := true
  delays := [0, 7249, 7410, 57392]
  powers := [0, (-19730), (-43320), (-119140)]

/-- `/repo/OpenNTN/models/TDL-C.json`. -/
def tdlC : TdlTable where
  los := true
  numClusters := 2
  scaleDelays := true
  delays := [0, 0, 148124]
  powers := [(-3940), (-106180), (-233730)]

/-- `/repo/OpenNTN/models/TDL-D.json`. -/
def tdlD : TdlTable where
  los := true
  numClusters := 3
  scaleDelays := true
  delays := [0, 0, 5596, 73340]
  powers := [(-2840), (-119910), (-98870), (-167710)]

/-- `/repo/OpenNTN/models/TDL-A30.json`. -/
def tdlA30 : TdlTable where
  los := false
  numClusters := 12
  scaleDelays := false
  delays := [0, 100000, 150000, 200000, 250000, 500000, 650000, 750000, 1050000, 1350000, 1500000, 2900000]
  powers := [(-155000), 0, (-51000), (-51000), (-96000), (-82000), (-131000), (-115000), (-110000), (-162000), (-166000), (-262000)]

/-- `/repo/OpenNTN/models/TDL-B100.json`. -/
def tdlB100 : TdlTable where
  los := false
  numClusters := 12
  scaleDelays := false
  delays := [0, 100000, 200000, 300000, 350000, 450000, 550000, 1200000, 1700000, 2450000, 3300000, 4800000]
  powers := [0, (-22000), (-6000), (-6000), (-3000), (-12000), (-59000), (-22000), (-8000), (-63000), (-75000), (-71000)]

/-- `/repo/OpenNTN/models/TDL-C300.json`. -/
def tdlC300 : TdlTable where
  los := false
  numClusters := 12
  scaleDelays := false
  delays := [0, 650000, 700000, 1900000, 1950000, 2000000, 2400000, 3250000, 5200000, 10450000, 15100000, 25950000]
  powers := [(-69000), 0, (-77000), (-25000), (-24000), (-99000), (-80000), (-66000), (-71000), (-130000), (-142000), (-160000)]

/-- `/repo/OpenNTN/models/CDL-A.json`. -/
def cdlA : CdlTable where
  los := false
  numClusters := 3
  cASD := 0
  cASA := 150000
  cZSD := 0
  cZSA := 70000
  xpr := 100000
  delays := [0, 10811, 28416]
  powers := [0, (-46750), (-64820)]
  aod := [0, 0, 0]
  aoa := [1788000, (-1157000), 1115000]
  zod := [1400000, 1400000, 1400000]
  zoa := [356000, 229000, 1274000]

/-- `/repo/OpenNTN/models/CDL-B.json`. -/
def cdlB : CdlTable where
  los := false
  numClusters := 4
  cASD := 0
  cASA := 150000
  cZSD := 0
  cZSA := 70000
  xpr := 100000
  delays := [0, 7249, 7410, 57392]
  powers := [0, (-19730), (-43320), (-119140)]
  aod := [0, 0, 0, 0]
  aoa := [(-1746000), 1449000, (-1198000), (-888000)]
  zod := [1400000, 1400000, 1400000, 1400000]
  zoa := [422000, 634000, 897000, 1741000]

/-- `/repo/OpenNTN/models/CDL-C.json`. -/
def cdlC : CdlTable where
  los := true
  numClusters := 2
  cASD := 0
  cASA := 110000
  cZSD := 0
  cZSA := 70000
  xpr := 160000
  delays := [0, 0, 148124]
  powers := [(-3940), (-106180), (-233730)]
  aod := [0, 0, 0]
  aoa := [(-1800000), (-1800000), (-759000)]
  zod := [1400000, 1400000, 1400000]
  zoa := [400000, 400000, 871000]

/-- `/repo/OpenNTN/models/CDL-D.json`. -/
def cdlD : CdlTable where
  los := true
  numClusters := 3
  cASD := 0
  cASA := 110000
  cZSD := 0
  cZSA := 70000
  xpr := 160000
  delays := [0, 0, 5596, 73340]
  powers := [(-2840), (-119910), (-98870), (-167710)]
  aod := [0, 0, 0, 0]
  aoa := [(-1800000), (-1800000), (-1354000), (-1215000)]
  zod := [1400000, 1400000, 1400000, 1400000]
  zoa := [400000, 400000, 1462000, 1360000]

end OpenNTN
