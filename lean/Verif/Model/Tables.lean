/-
Parameter tables of `/repo/OpenNTN/models/*Urban*.json`, one definition per file.
Generated by `/verif/tools/gen_tables.py` from the JSON text; every definition below cites the file it was read from.

Simplifications:
* the JSON key `name_angle` is modelled by the pair (`name`, `angle`) instead of the concatenated string;
* numbers are stored exactly as integer thousandths (all table values have at most three decimals), the string `"-inf"` is `ninf`.
-/
namespace OpenNTN

/-- A number in a parameter file (`/repo/OpenNTN/models/*.json`): `m n` is `n/1000`, `ninf` is the string `"-inf"`. -/
inductive Cell where
  | m (milli : Int)
  | ninf
deriving DecidableEq, Repr, Inhabited

/-- Parameter names occurring in the scenario parameter files (`/repo/OpenNTN/models/*Urban*.json`). -/
inductive Param where
  | pCL
  | pCPhiNLoS
  | pCThetaNLoS
  | pLoSp
  | pcASA
  | pcASD
  | pcDS
  | pcZSA
  | pcorrASAvsDS
  | pcorrASAvsK
  | pcorrASAvsSF
  | pcorrASDvsASA
  | pcorrASDvsDS
  | pcorrASDvsK
  | pcorrASDvsSF
  | pcorrDSvsK
  | pcorrDSvsSF
  | pcorrDistASA
  | pcorrDistASD
  | pcorrDistDS
  | pcorrDistK
  | pcorrDistSF
  | pcorrDistZSA
  | pcorrDistZSD
  | pcorrSFvsK
  | pcorrZSAvsASA
  | pcorrZSAvsASD
  | pcorrZSAvsDS
  | pcorrZSAvsK
  | pcorrZSAvsSF
  | pcorrZSDvsASA
  | pcorrZSDvsASD
  | pcorrZSDvsDS
  | pcorrZSDvsK
  | pcorrZSDvsSF
  | pcorrZSDvsZSA
  | pmuASA
  | pmuASD
  | pmuDS
  | pmuK
  | pmuXPR
  | pmuZSA
  | pmuZSD
  | pnumClusters
  | prTau
  | psigmaASA
  | psigmaASD
  | psigmaDS
  | psigmaK
  | psigmaSF
  | psigmaXPR
  | psigmaZSA
  | psigmaZSD
  | pzeta
deriving DecidableEq, Repr

/-- The name as it is written in the parameter files, before the angle suffix (`/repo/OpenNTN/models/*Urban*.json`). -/
def Param.name : Param → String
  | .pCL => "CL"
  | .pCPhiNLoS => "CPhiNLoS"
  | .pCThetaNLoS => "CThetaNLoS"
  | .pLoSp => "LoS_p"
  | .pcASA => "cASA"
  | .pcASD => "cASD"
  | .pcDS => "cDS"
  | .pcZSA => "cZSA"
  | .pcorrASAvsDS => "corrASAvsDS"
  | .pcorrASAvsK => "corrASAvsK"
  | .pcorrASAvsSF => "corrASAvsSF"
  | .pcorrASDvsASA => "corrASDvsASA"
  | .pcorrASDvsDS => "corrASDvsDS"
  | .pcorrASDvsK => "corrASDvsK"
  | .pcorrASDvsSF => "corrASDvsSF"
  | .pcorrDSvsK => "corrDSvsK"
  | .pcorrDSvsSF => "corrDSvsSF"
  | .pcorrDistASA => "corrDistASA"
  | .pcorrDistASD => "corrDistASD"
  | .pcorrDistDS => "corrDistDS"
  | .pcorrDistK => "corrDistK"
  | .pcorrDistSF => "corrDistSF"
  | .pcorrDistZSA => "corrDistZSA"
  | .pcorrDistZSD => "corrDistZSD"
  | .pcorrSFvsK => "corrSFvsK"
  | .pcorrZSAvsASA => "corrZSAvsASA"
  | .pcorrZSAvsASD => "corrZSAvsASD"
  | .pcorrZSAvsDS => "corrZSAvsDS"
  | .pcorrZSAvsK => "corrZSAvsK"
  | .pcorrZSAvsSF => "corrZSAvsSF"
  | .pcorrZSDvsASA => "corrZSDvsASA"
  | .pcorrZSDvsASD => "corrZSDvsASD"
  | .pcorrZSDvsDS => "corrZSDvsDS"
  | .pcorrZSDvsK => "corrZSDvsK"
  | .pcorrZSDvsSF => "corrZSDvsSF"
  | .pcorrZSDvsZSA => "corrZSDvsZSA"
  | .pmuASA => "muASA"
  | .pmuASD => "muASD"
  | .pmuDS => "muDS"
  | .pmuK => "muK"
  | .pmuXPR => "muXPR"
  | .pmuZSA => "muZSA"
  | .pmuZSD => "muZSD"
  | .pnumClusters => "numClusters"
  | .prTau => "rTau"
  | .psigmaASA => "sigmaASA"
  | .psigmaASD => "sigmaASD"
  | .psigmaDS => "sigmaDS"
  | .psigmaK => "sigmaK"
  | .psigmaSF => "sigmaSF"
  | .psigmaXPR => "sigmaXPR"
  | .psigmaZSA => "sigmaZSA"
  | .psigmaZSD => "sigmaZSD"
  | .pzeta => "zeta"

/-- What a parameter file holds for a name: nothing, one value (key without angle), or one value for each of the
angles 10,20,...,90 (keys `name_10` ... `name_90`). -/
inductive Entry where
  | absent
  | scalar (c : Cell)
  | byAngle (c10 c20 c30 c40 c50 c60 c70 c80 c90 : Cell)
deriving DecidableEq, Repr

/-- The content of one parameter file. -/
abbrev ParamFile := Param → Entry

open Cell Entry

/-- `/repo/OpenNTN/models/Dense_Urban_LOS_Ka_band_DL.json` -/
def fileDenseUrbanLOSKabandDL : ParamFile
  | .pCL => absent
  | .pCPhiNLoS => scalar (m 680)
  | .pCThetaNLoS => scalar (m 594)
  | .pLoSp => byAngle (m 282) (m 331) (m 398) (m 468) (m 537) (m 612) (m 738) (m 820) (m 981)
  | .pcASA => byAngle (m 11000) (m 11000) (m 11000) (m 11000) (m 11000) (m 11000) (m 11000) (m 11000) (m 11000)
  | .pcASD => byAngle (m 0) (m 0) (m 0) (m 0) (m 0) (m 0) (m 0) (m 0) (m 0)
  | .pcDS => byAngle (m 1600) (m 1600) (m 1600) (m 1600) (m 1600) (m 1600) (m 1600) (m 1600) (m 1600)
  | .pcZSA => byAngle (m 7000) (m 7000) (m 7000) (m 7000) (m 7000) (m 7000) (m 7000) (m 7000) (m 7000)
  | .pcorrASAvsDS => byAngle (m 800) (m 800) (m 800) (m 800) (m 800) (m 800) (m 800) (m 800) (m 800)
  | .pcorrASAvsK => byAngle (m (-200)) (m (-200)) (m (-200)) (m (-200)) (m (-200)) (m (-200)) (m (-200)) (m (-200)) (m (-200))
  | .pcorrASAvsSF => byAngle (m (-500)) (m (-500)) (m (-500)) (m (-500)) (m (-500)) (m (-500)) (m (-500)) (m (-500)) (m (-500))
  | .pcorrASDvsASA => byAngle (m 0) (m 0) (m 0) (m 0) (m 0) (m 0) (m 0) (m 0) (m 0)
  | .pcorrASDvsDS => byAngle (m 0) (m 0) (m 0) (m 0) (m 0) (m 0) (m 0) (m 0) (m 0)
  | .pcorrASDvsK => byAngle (m 0) (m 0) (m 0) (m 0) (m 0) (m 0) (m 0) (m 0) (m 0)
  | .pcorrASDvsSF => byAngle (m 0) (m 0) (m 0) (m 0) (m 0) (m 0) (m 0) (m 0) (m 0)
  | .pcorrDSvsK => byAngle (m (-400)) (m (-400)) (m (-400)) (m (-400)) (m (-400)) (m (-400)) (m (-400)) (m (-400)) (m (-400))
  | .pcorrDSvsSF => byAngle (m (-400)) (m (-400)) (m (-400)) (m (-400)) (m (-400)) (m (-400)) (m (-400)) (m (-400)) (m (-400))
  | .pcorrDistASA => byAngle (m 15000) (m 15000) (m 15000) (m 15000) (m 15000) (m 15000) (m 15000) (m 15000) (m 15000)
  | .pcorrDistASD => byAngle (m 18000) (m 18000) (m 18000) (m 18000) (m 18000) (m 18000) (m 18000) (m 18000) (m 18000)
  | .pcorrDistDS => byAngle (m 30000) (m 30000) (m 30000) (m 30000) (m 30000) (m 30000) (m 30000) (m 30000) (m 30000)
  | .pcorrDistK => byAngle (m 12000) (m 12000) (m 12000) (m 12000) (m 12000) (m 12000) (m 12000) (m 12000) (m 12000)
  | .pcorrDistSF => byAngle (m 37000) (m 37000) (m 37000) (m 37000) (m 37000) (m 37000) (m 37000) (m 37000) (m 37000)
  | .pcorrDistZSA => byAngle (m 15000) (m 15000) (m 15000) (m 15000) (m 15000) (m 15000) (m 15000) (m 15000) (m 15000)
  | .pcorrDistZSD => byAngle (m 15000) (m 15000) (m 15000) (m 15000) (m 15000) (m 15000) (m 15000) (m 15000) (m 15000)
  | .pcorrSFvsK => byAngle (m 0) (m 0) (m 0) (m 0) (m 0) (m 0) (m 0) (m 0) (m 0)
  | .pcorrZSAvsASA => byAngle (m 400) (m 400) (m 400) (m 400) (m 400) (m 400) (m 400) (m 400) (m 400)
  | .pcorrZSAvsASD => byAngle (m 0) (m 0) (m 0) (m 0) (m 0) (m 0) (m 0) (m 0) (m 0)
  | .pcorrZSAvsDS => byAngle (m 0) (m 0) (m 0) (m 0) (m 0) (m 0) (m 0) (m 0) (m 0)
  | .pcorrZSAvsK => byAngle (m 0) (m 0) (m 0) (m 0) (m 0) (m 0) (m 0) (m 0) (m 0)
  | .pcorrZSAvsSF => byAngle (m (-800)) (m (-800)) (m (-800)) (m (-800)) (m (-800)) (m (-800)) (m (-800)) (m (-800)) (m (-800))
  | .pcorrZSDvsASA => byAngle (m 0) (m 0) (m 0) (m 0) (m 0) (m 0) (m 0) (m 0) (m 0)
  | .pcorrZSDvsASD => byAngle (m 0) (m 0) (m 0) (m 0) (m 0) (m 0) (m 0) (m 0) (m 0)
  | .pcorrZSDvsDS => byAngle (m 0) (m 0) (m 0) (m 0) (m 0) (m 0) (m 0) (m 0) (m 0)
  | .pcorrZSDvsK => byAngle (m 0) (m 0) (m 0) (m 0) (m 0) (m 0) (m 0) (m 0) (m 0)
  | .pcorrZSDvsSF => byAngle (m 0) (m 0) (m 0) (m 0) (m 0) (m 0) (m 0) (m 0) (m 0)
  | .pcorrZSDvsZSA => byAngle (m 0) (m 0) (m 0) (m 0) (m 0) (m 0) (m 0) (m 0) (m 0)
  | .pmuASA => byAngle (m 650) (m 530) (m 600) (m 430) (m 360) (m 160) (m 180) (m 240) (m 360)
  | .pmuASD => byAngle ninf ninf ninf ninf ninf ninf ninf ninf ninf
  | .pmuDS => byAngle (m (-7430)) (m (-7620)) (m (-7760)) (m (-8020)) (m (-8130)) (m (-8300)) (m (-8340)) (m (-8390)) (m (-8450))
  | .pmuK => byAngle (m 6100) (m 13700) (m 12900) (m 10300) (m 9200) (m 8400) (m 8000) (m 7400) (m 7600)
  | .pmuXPR => byAngle (m 24700) (m 24400) (m 24400) (m 24200) (m 23900) (m 23300) (m 22600) (m 21200) (m 17600)
  | .pmuZSA => byAngle (m 820) (m 470) (m 800) (m 1230) (m 1420) (m 1560) (m 1650) (m 1730) (m 1790)
  | .pmuZSD => byAngle ninf ninf ninf ninf ninf ninf ninf ninf ninf
  | .pnumClusters => byAngle (m 3000) (m 3000) (m 3000) (m 3000) (m 3000) (m 3000) (m 3000) (m 3000) (m 3000)
  | .prTau => byAngle (m 2500) (m 2500) (m 2500) (m 2500) (m 2500) (m 2500) (m 2500) (m 2500) (m 2500)
  | .psigmaASA => byAngle (m 820) (m 780) (m 830) (m 780) (m 770) (m 840) (m 640) (m 810) (m 650)
  | .psigmaASD => byAngle (m 0) (m 0) (m 0) (m 0) (m 0) (m 0) (m 0) (m 0) (m 0)
  | .psigmaDS => byAngle (m 900) (m 780) (m 800) (m 720) (m 610) (m 470) (m 390) (m 260) (m 10)
  | .psigmaK => byAngle (m 2600) (m 6800) (m 6000) (m 3300) (m 2200) (m 1900) (m 1500) (m 1600) (m 1300)
  | .psigmaSF => byAngle (m 2900) (m 2400) (m 2700) (m 2400) (m 2400) (m 2700) (m 2600) (m 2800) (m 600)
  | .psigmaXPR => byAngle (m 2100) (m 2800) (m 2700) (m 2700) (m 3100) (m 3900) (m 4800) (m 6800) (m 12700)
  | .psigmaZSA => byAngle (m 50) (m 110) (m 50) (m 40) (m 100) (m 60) (m 70) (m 20) (m 10)
  | .psigmaZSD => byAngle (m 0) (m 0) (m 0) (m 0) (m 0) (m 0) (m 0) (m 0) (m 0)
  | .pzeta => byAngle (m 3000) (m 3000) (m 3000) (m 3000) (m 3000) (m 3000) (m 3000) (m 3000) (m 3000)

/-- `/repo/OpenNTN/models/Dense_Urban_LOS_Ka_band_UL.json` -/
def fileDenseUrbanLOSKabandUL : ParamFile
  | .pCL => absent
  | .pCPhiNLoS => scalar (m 680)
  | .pCThetaNLoS => scalar (m 594)
  | .pLoSp => byAngle (m 282) (m 331) (m 398) (m 468) (m 537) (m 612) (m 738) (m 820) (m 981)
  | .pcASA => byAngle (m 11000) (m 11000) (m 11000) (m 11000) (m 11000) (m 11000) (m 11000) (m 11000) (m 11000)
  | .pcASD => byAngle (m 0) (m 0) (m 0) (m 0) (m 0) (m 0) (m 0) (m 0) (m 0)
  | .pcDS => byAngle (m 1600) (m 1600) (m 1600) (m 1600) (m 1600) (m 1600) (m 1600) (m 1600) (m 1600)
  | .pcZSA => byAngle (m 7000) (m 7000) (m 7000) (m 7000) (m 7000) (m 7000) (m 7000) (m 7000) (m 7000)
  | .pcorrASAvsDS => byAngle (m 800) (m 800) (m 800) (m 800) (m 800) (m 800) (m 800) (m 800) (m 800)
  | .pcorrASAvsK => byAngle (m (-200)) (m (-200)) (m (-200)) (m (-200)) (m (-200)) (m (-200)) (m (-200)) (m (-200)) (m (-200))
  | .pcorrASAvsSF => byAngle (m (-500)) (m (-500)) (m (-500)) (m (-500)) (m (-500)) (m (-500)) (m (-500)) (m (-500)) (m (-500))
  | .pcorrASDvsASA => byAngle (m 0) (m 0) (m 0) (m 0) (m 0) (m 0) (m 0) (m 0) (m 0)
  | .pcorrASDvsDS => byAngle (m 400) (m 400) (m 400) (m 400) (m 400) (m 400) (m 400) (m 400) (m 400)
  | .pcorrASDvsK => byAngle (m 0) (m 0) (m 0) (m 0) (m 0) (m 0) (m 0) (m 0) (m 0)
  | .pcorrASDvsSF => byAngle (m (-500)) (m (-500)) (m (-500)) (m (-500)) (m (-500)) (m (-500)) (m (-500)) (m (-500)) (m (-500))
  | .pcorrDSvsK => byAngle (m (-400)) (m (-400)) (m (-400)) (m (-400)) (m (-400)) (m (-400)) (m (-400)) (m (-400)) (m (-400))
  | .pcorrDSvsSF => byAngle (m (-400)) (m (-400)) (m (-400)) (m (-400)) (m (-400)) (m (-400)) (m (-400)) (m (-400)) (m (-400))
  | .pcorrDistASA => byAngle (m 15000) (m 15000) (m 15000) (m 15000) (m 15000) (m 15000) (m 15000) (m 15000) (m 15000)
  | .pcorrDistASD => byAngle (m 18000) (m 18000) (m 18000) (m 18000) (m 18000) (m 18000) (m 18000) (m 18000) (m 18000)
  | .pcorrDistDS => byAngle (m 30000) (m 30000) (m 30000) (m 30000) (m 30000) (m 30000) (m 30000) (m 30000) (m 30000)
  | .pcorrDistK => byAngle (m 12000) (m 12000) (m 12000) (m 12000) (m 12000) (m 12000) (m 12000) (m 12000) (m 12000)
  | .pcorrDistSF => byAngle (m 37000) (m 37000) (m 37000) (m 37000) (m 37000) (m 37000) (m 37000) (m 37000) (m 37000)
  | .pcorrDistZSA => byAngle (m 15000) (m 15000) (m 15000) (m 15000) (m 15000) (m 15000) (m 15000) (m 15000) (m 15000)
  | .pcorrDistZSD => byAngle (m 15000) (m 15000) (m 15000) (m 15000) (m 15000) (m 15000) (m 15000) (m 15000) (m 15000)
  | .pcorrSFvsK => byAngle (m 0) (m 0) (m 0) (m 0) (m 0) (m 0) (m 0) (m 0) (m 0)
  | .pcorrZSAvsASA => byAngle (m 400) (m 400) (m 400) (m 400) (m 400) (m 400) (m 400) (m 400) (m 400)
  | .pcorrZSAvsASD => byAngle (m 0) (m 0) (m 0) (m 0) (m 0) (m 0) (m 0) (m 0) (m 0)
  | .pcorrZSAvsDS => byAngle (m 0) (m 0) (m 0) (m 0) (m 0) (m 0) (m 0) (m 0) (m 0)
  | .pcorrZSAvsK => byAngle (m 0) (m 0) (m 0) (m 0) (m 0) (m 0) (m 0) (m 0) (m 0)
  | .pcorrZSAvsSF => byAngle (m (-800)) (m (-800)) (m (-800)) (m (-800)) (m (-800)) (m (-800)) (m (-800)) (m (-800)) (m (-800))
  | .pcorrZSDvsASA => byAngle (m (-300)) (m (-300)) (m (-300)) (m (-300)) (m (-300)) (m (-300)) (m (-300)) (m (-300)) (m (-300))
  | .pcorrZSDvsASD => byAngle (m 500) (m 500) (m 500) (m 500) (m 500) (m 500) (m 500) (m 500) (m 500)
  | .pcorrZSDvsDS => byAngle (m (-200)) (m (-200)) (m (-200)) (m (-200)) (m (-200)) (m (-200)) (m (-200)) (m (-200)) (m (-200))
  | .pcorrZSDvsK => byAngle (m 0) (m 0) (m 0) (m 0) (m 0) (m 0) (m 0) (m 0) (m 0)
  | .pcorrZSDvsSF => byAngle (m 0) (m 0) (m 0) (m 0) (m 0) (m 0) (m 0) (m 0) (m 0)
  | .pcorrZSDvsZSA => byAngle (m 0) (m 0) (m 0) (m 0) (m 0) (m 0) (m 0) (m 0) (m 0)
  | .pmuASA => byAngle (m 650) (m 530) (m 600) (m 430) (m 360) (m 160) (m 180) (m 240) (m 360)
  | .pmuASD => byAngle (m (-3430)) (m (-3060)) (m (-2910)) (m (-2810)) (m (-2740)) (m (-2720)) (m (-2460)) (m (-2300)) (m (-1110))
  | .pmuDS => byAngle (m (-7430)) (m (-7620)) (m (-7760)) (m (-8020)) (m (-8130)) (m (-8300)) (m (-8340)) (m (-8390)) (m (-8450))
  | .pmuK => byAngle (m 6100) (m 13700) (m 12900) (m 10300) (m 9200) (m 8400) (m 8000) (m 7400) (m 7600)
  | .pmuXPR => byAngle (m 24700) (m 24400) (m 24400) (m 24200) (m 23900) (m 23300) (m 22600) (m 21200) (m 17600)
  | .pmuZSA => byAngle (m 820) (m 470) (m 800) (m 1230) (m 1420) (m 1560) (m 1650) (m 1730) (m 1790)
  | .pmuZSD => byAngle (m (-2750)) (m (-2640)) (m (-2490)) (m (-2510)) (m (-2540)) (m (-2710)) (m (-2850)) (m (-3010)) (m (-3080))
  | .pnumClusters => byAngle (m 3000) (m 3000) (m 3000) (m 3000) (m 3000) (m 3000) (m 3000) (m 3000) (m 3000)
  | .prTau => byAngle (m 2500) (m 2500) (m 2500) (m 2500) (m 2500) (m 2500) (m 2500) (m 2500) (m 2500)
  | .psigmaASA => byAngle (m 820) (m 780) (m 830) (m 780) (m 770) (m 840) (m 640) (m 810) (m 650)
  | .psigmaASD => byAngle (m 540) (m 410) (m 420) (m 340) (m 340) (m 700) (m 400) (m 780) (m 510)
  | .psigmaDS => byAngle (m 900) (m 780) (m 800) (m 720) (m 610) (m 470) (m 390) (m 260) (m 10)
  | .psigmaK => byAngle (m 2600) (m 6800) (m 6000) (m 3300) (m 2200) (m 1900) (m 1500) (m 1600) (m 1300)
  | .psigmaSF => byAngle (m 2900) (m 2400) (m 2700) (m 2400) (m 2400) (m 2700) (m 2600) (m 2800) (m 600)
  | .psigmaXPR => byAngle (m 2100) (m 2800) (m 2700) (m 2700) (m 3100) (m 3900) (m 4800) (m 6800) (m 12700)
  | .psigmaZSA => byAngle (m 50) (m 110) (m 50) (m 40) (m 100) (m 60) (m 70) (m 20) (m 10)
  | .psigmaZSD => byAngle (m 550) (m 640) (m 690) (m 570) (m 500) (m 370) (m 310) (m 450) (m 270)
  | .pzeta => byAngle (m 3000) (m 3000) (m 3000) (m 3000) (m 3000) (m 3000) (m 3000) (m 3000) (m 3000)

/-- `/repo/OpenNTN/models/Dense_Urban_LOS_S_band_DL.json` -/
def fileDenseUrbanLOSSbandDL : ParamFile
  | .pCL => absent
  | .pCPhiNLoS => scalar (m 680)
  | .pCThetaNLoS => scalar (m 594)
  | .pLoSp => byAngle (m 282) (m 331) (m 398) (m 468) (m 537) (m 612) (m 738) (m 820) (m 981)
  | .pcASA => byAngle (m 11000) (m 11000) (m 11000) (m 11000) (m 11000) (m 11000) (m 11000) (m 11000) (m 11000)
  | .pcASD => byAngle (m 0) (m 0) (m 0) (m 0) (m 0) (m 0) (m 0) (m 0) (m 0)
  | .pcDS => byAngle (m 3900) (m 3900) (m 3900) (m 3900) (m 3900) (m 3900) (m 3900) (m 3900) (m 3900)
  | .pcZSA => byAngle (m 7000) (m 7000) (m 7000) (m 7000) (m 7000) (m 7000) (m 7000) (m 7000) (m 7000)
  | .pcorrASAvsDS => byAngle (m 800) (m 800) (m 800) (m 800) (m 800) (m 800) (m 800) (m 800) (m 800)
  | .pcorrASAvsK => byAngle (m (-200)) (m (-200)) (m (-200)) (m (-200)) (m (-200)) (m (-200)) (m (-200)) (m (-200)) (m (-200))
  | .pcorrASAvsSF => byAngle (m (-500)) (m (-500)) (m (-500)) (m (-500)) (m (-500)) (m (-500)) (m (-500)) (m (-500)) (m (-500))
  | .pcorrASDvsASA => byAngle (m 0) (m 0) (m 0) (m 0) (m 0) (m 0) (m 0) (m 0) (m 0)
  | .pcorrASDvsDS => byAngle (m 0) (m 0) (m 0) (m 0) (m 0) (m 0) (m 0) (m 0) (m 0)
  | .pcorrASDvsK => byAngle (m 0) (m 0) (m 0) (m 0) (m 0) (m 0) (m 0) (m 0) (m 0)
  | .pcorrASDvsSF => byAngle (m 0) (m 0) (m 0) (m 0) (m 0) (m 0) (m 0) (m 0) (m 0)
  | .pcorrDSvsK => byAngle (m (-400)) (m (-400)) (m (-400)) (m (-400)) (m (-400)) (m (-400)) (m (-400)) (m (-400)) (m (-400))
  | .pcorrDSvsSF => byAngle (m (-400)) (m (-400)) (m (-400)) (m (-400)) (m (-400)) (m (-400)) (m (-400)) (m (-400)) (m (-400))
  | .pcorrDistASA => byAngle (m 15000) (m 15000) (m 15000) (m 15000) (m 15000) (m 15000) (m 15000) (m 15000) (m 15000)
  | .pcorrDistASD => byAngle (m 18000) (m 18000) (m 18000) (m 18000) (m 18000) (m 18000) (m 18000) (m 18000) (m 18000)
  | .pcorrDistDS => byAngle (m 30000) (m 30000) (m 30000) (m 30000) (m 30000) (m 30000) (m 30000) (m 30000) (m 30000)
  | .pcorrDistK => byAngle (m 12000) (m 12000) (m 12000) (m 12000) (m 12000) (m 12000) (m 12000) (m 12000) (m 12000)
  | .pcorrDistSF => byAngle (m 37000) (m 37000) (m 37000) (m 37000) (m 37000) (m 37000) (m 37000) (m 37000) (m 37000)
  | .pcorrDistZSA => byAngle (m 15000) (m 15000) (m 15000) (m 15000) (m 15000) (m 15000) (m 15000) (m 15000) (m 15000)
  | .pcorrDistZSD => byAngle (m 15000) (m 15000) (m 15000) (m 15000) (m 15000) (m 15000) (m 15000) (m 15000) (m 15000)
  | .pcorrSFvsK => byAngle (m 0) (m 0) (m 0) (m 0) (m 0) (m 0) (m 0) (m 0) (m 0)
  | .pcorrZSAvsASA => byAngle (m 400) (m 400) (m 400) (m 400) (m 400) (m 400) (m 400) (m 400) (m 400)
  | .pcorrZSAvsASD => byAngle (m 0) (m 0) (m 0) (m 0) (m 0) (m 0) (m 0) (m 0) (m 0)
  | .pcorrZSAvsDS => byAngle (m 0) (m 0) (m 0) (m 0) (m 0) (m 0) (m 0) (m 0) (m 0)
  | .pcorrZSAvsK => byAngle (m 0) (m 0) (m 0) (m 0) (m 0) (m 0) (m 0) (m 0) (m 0)
  | .pcorrZSAvsSF => byAngle (m (-800)) (m (-800)) (m (-800)) (m (-800)) (m (-800)) (m (-800)) (m (-800)) (m (-800)) (m (-800))
  | .pcorrZSDvsASA => byAngle (m 0) (m 0) (m 0) (m 0) (m 0) (m 0) (m 0) (m 0) (m 0)
  | .pcorrZSDvsASD => byAngle (m 0) (m 0) (m 0) (m 0) (m 0) (m 0) (m 0) (m 0) (m 0)
  | .pcorrZSDvsDS => byAngle (m 0) (m 0) (m 0) (m 0) (m 0) (m 0) (m 0) (m 0) (m 0)
  | .pcorrZSDvsK => byAngle (m 0) (m 0) (m 0) (m 0) (m 0) (m 0) (m 0) (m 0) (m 0)
  | .pcorrZSDvsSF => byAngle (m 0) (m 0) (m 0) (m 0) (m 0) (m 0) (m 0) (m 0) (m 0)
  | .pcorrZSDvsZSA => byAngle (m 0) (m 0) (m 0) (m 0) (m 0) (m 0) (m 0) (m 0) (m 0)
  | .pmuASA => byAngle (m 940) (m 870) (m 920) (m 790) (m 720) (m 600) (m 550) (m 710) (m 810)
  | .pmuASD => byAngle ninf ninf ninf ninf ninf ninf ninf ninf ninf
  | .pmuDS => byAngle (m (-7120)) (m (-7280)) (m (-7450)) (m (-7730)) (m (-7910)) (m (-8140)) (m (-8230)) (m (-8280)) (m (-8360))
  | .pmuK => byAngle (m 4400) (m 9000) (m 9300) (m 7900) (m 7400) (m 7000) (m 6900) (m 6500) (m 6800)
  | .pmuXPR => byAngle (m 24400) (m 23600) (m 23200) (m 22600) (m 21800) (m 20500) (m 19300) (m 17400) (m 12300)
  | .pmuZSA => byAngle (m 820) (m 500) (m 820) (m 1230) (m 1430) (m 1560) (m 1660) (m 1730) (m 1790)
  | .pmuZSD => byAngle ninf ninf ninf ninf ninf ninf ninf ninf ninf
  | .pnumClusters => byAngle (m 3000) (m 3000) (m 3000) (m 3000) (m 3000) (m 3000) (m 3000) (m 3000) (m 3000)
  | .prTau => byAngle (m 2500) (m 2500) (m 2500) (m 2500) (m 2500) (m 2500) (m 2500) (m 2500) (m 2500)
  | .psigmaASA => byAngle (m 700) (m 660) (m 680) (m 640) (m 630) (m 540) (m 520) (m 530) (m 620)
  | .psigmaASD => byAngle (m 0) (m 0) (m 0) (m 0) (m 0) (m 0) (m 0) (m 0) (m 0)
  | .psigmaDS => byAngle (m 800) (m 670) (m 680) (m 660) (m 620) (m 510) (m 450) (m 310) (m 80)
  | .psigmaK => byAngle (m 3300) (m 6600) (m 6100) (m 4000) (m 3000) (m 2600) (m 2200) (m 2100) (m 1900)
  | .psigmaSF => byAngle (m 3500) (m 3400) (m 2900) (m 3000) (m 3100) (m 2700) (m 2500) (m 2300) (m 1200)
  | .psigmaXPR => byAngle (m 3800) (m 4700) (m 4600) (m 4900) (m 5700) (m 6900) (m 8100) (m 10300) (m 15200)
  | .psigmaZSA => byAngle (m 30) (m 90) (m 50) (m 30) (m 60) (m 50) (m 50) (m 20) (m 10)
  | .psigmaZSD => byAngle (m 0) (m 0) (m 0) (m 0) (m 0) (m 0) (m 0) (m 0) (m 0)
  | .pzeta => byAngle (m 3000) (m 3000) (m 3000) (m 3000) (m 3000) (m 3000) (m 3000) (m 3000) (m 3000)

/-- `/repo/OpenNTN/models/Dense_Urban_LOS_S_band_UL.json` -/
def fileDenseUrbanLOSSbandUL : ParamFile
  | .pCL => absent
  | .pCPhiNLoS => scalar (m 680)
  | .pCThetaNLoS => scalar (m 594)
  | .pLoSp => byAngle (m 282) (m 331) (m 398) (m 468) (m 537) (m 612) (m 738) (m 820) (m 981)
  | .pcASA => byAngle (m 11000) (m 11000) (m 11000) (m 11000) (m 11000) (m 11000) (m 11000) (m 11000) (m 11000)
  | .pcASD => byAngle (m 0) (m 0) (m 0) (m 0) (m 0) (m 0) (m 0) (m 0) (m 0)
  | .pcDS => byAngle (m 3900) (m 3900) (m 3900) (m 3900) (m 3900) (m 3900) (m 3900) (m 3900) (m 3900)
  | .pcZSA => byAngle (m 7000) (m 7000) (m 7000) (m 7000) (m 7000) (m 7000) (m 7000) (m 7000) (m 7000)
  | .pcorrASAvsDS => byAngle (m 800) (m 800) (m 800) (m 800) (m 800) (m 800) (m 800) (m 800) (m 800)
  | .pcorrASAvsK => byAngle (m (-200)) (m (-200)) (m (-200)) (m (-200)) (m (-200)) (m (-200)) (m (-200)) (m (-200)) (m (-200))
  | .pcorrASAvsSF => byAngle (m (-500)) (m (-500)) (m (-500)) (m (-500)) (m (-500)) (m (-500)) (m (-500)) (m (-500)) (m (-500))
  | .pcorrASDvsASA => byAngle (m 0) (m 0) (m 0) (m 0) (m 0) (m 0) (m 0) (m 0) (m 0)
  | .pcorrASDvsDS => byAngle (m 400) (m 400) (m 400) (m 400) (m 400) (m 400) (m 400) (m 400) (m 400)
  | .pcorrASDvsK => byAngle (m 0) (m 0) (m 0) (m 0) (m 0) (m 0) (m 0) (m 0) (m 0)
  | .pcorrASDvsSF => byAngle (m (-500)) (m (-500)) (m (-500)) (m (-500)) (m (-500)) (m (-500)) (m (-500)) (m (-500)) (m (-500))
  | .pcorrDSvsK => byAngle (m (-400)) (m (-400)) (m (-400)) (m (-400)) (m (-400)) (m (-400)) (m (-400)) (m (-400)) (m (-400))
  | .pcorrDSvsSF => byAngle (m (-400)) (m (-400)) (m (-400)) (m (-400)) (m (-400)) (m (-400)) (m (-400)) (m (-400)) (m (-400))
  | .pcorrDistASA => byAngle (m 15000) (m 15000) (m 15000) (m 15000) (m 15000) (m 15000) (m 15000) (m 15000) (m 15000)
  | .pcorrDistASD => byAngle (m 18000) (m 18000) (m 18000) (m 18000) (m 18000) (m 18000) (m 18000) (m 18000) (m 18000)
  | .pcorrDistDS => byAngle (m 30000) (m 30000) (m 30000) (m 30000) (m 30000) (m 30000) (m 30000) (m 30000) (m 30000)
  | .pcorrDistK => byAngle (m 12000) (m 12000) (m 12000) (m 12000) (m 12000) (m 12000) (m 12000) (m 12000) (m 12000)
  | .pcorrDistSF => byAngle (m 37000) (m 37000) (m 37000) (m 37000) (m 37000) (m 37000) (m 37000) (m 37000) (m 37000)
  | .pcorrDistZSA => byAngle (m 15000) (m 15000) (m 15000) (m 15000) (m 15000) (m 15000) (m 15000) (m 15000) (m 15000)
  | .pcorrDistZSD => byAngle (m 15000) (m 15000) (m 15000) (m 15000) (m 15000) (m 15000) (m 15000) (m 15000) (m 15000)
  | .pcorrSFvsK => byAngle (m 0) (m 0) (m 0) (m 0) (m 0) (m 0) (m 0) (m 0) (m 0)
  | .pcorrZSAvsASA => byAngle (m 400) (m 400) (m 400) (m 400) (m 400) (m 400) (m 400) (m 400) (m 400)
  | .pcorrZSAvsASD => byAngle (m 0) (m 0) (m 0) (m 0) (m 0) (m 0) (m 0) (m 0) (m 0)
  | .pcorrZSAvsDS => byAngle (m 0) (m 0) (m 0) (m 0) (m 0) (m 0) (m 0) (m 0) (m 0)
  | .pcorrZSAvsK => byAngle (m 0) (m 0) (m 0) (m 0) (m 0) (m 0) (m 0) (m 0) (m 0)
  | .pcorrZSAvsSF => byAngle (m (-800)) (m (-800)) (m (-800)) (m (-800)) (m (-800)) (m (-800)) (m (-800)) (m (-800)) (m (-800))
  | .pcorrZSDvsASA => byAngle (m (-300)) (m (-300)) (m (-300)) (m (-300)) (m (-300)) (m (-300)) (m (-300)) (m (-300)) (m (-300))
  | .pcorrZSDvsASD => byAngle (m 500) (m 500) (m 500) (m 500) (m 500) (m 500) (m 500) (m 500) (m 500)
  | .pcorrZSDvsDS => byAngle (m (-200)) (m (-200)) (m (-200)) (m (-200)) (m (-200)) (m (-200)) (m (-200)) (m (-200)) (m (-200))
  | .pcorrZSDvsK => byAngle (m 0) (m 0) (m 0) (m 0) (m 0) (m 0) (m 0) (m 0) (m 0)
  | .pcorrZSDvsSF => byAngle (m 0) (m 0) (m 0) (m 0) (m 0) (m 0) (m 0) (m 0) (m 0)
  | .pcorrZSDvsZSA => byAngle (m 0) (m 0) (m 0) (m 0) (m 0) (m 0) (m 0) (m 0) (m 0)
  | .pmuASA => byAngle (m 940) (m 870) (m 920) (m 790) (m 720) (m 600) (m 550) (m 710) (m 810)
  | .pmuASD => byAngle (m (-3060)) (m (-2680)) (m (-2510)) (m (-2400)) (m (-2310)) (m (-2200)) (m (-2000)) (m (-1640)) (m (-630))
  | .pmuDS => byAngle (m (-7120)) (m (-7280)) (m (-7450)) (m (-7730)) (m (-7910)) (m (-8140)) (m (-8230)) (m (-8280)) (m (-8360))
  | .pmuK => byAngle (m 4400) (m 9000) (m 9300) (m 7900) (m 7400) (m 7000) (m 6900) (m 6500) (m 6800)
  | .pmuXPR => byAngle (m 24400) (m 23600) (m 23200) (m 22600) (m 21800) (m 20500) (m 19300) (m 17400) (m 12300)
  | .pmuZSA => byAngle (m 820) (m 500) (m 820) (m 1230) (m 1430) (m 1560) (m 1660) (m 1730) (m 1790)
  | .pmuZSD => byAngle (m (-2520)) (m (-2290)) (m (-2190)) (m (-2240)) (m (-2300)) (m (-2480)) (m (-2640)) (m (-2680)) (m (-2610))
  | .pnumClusters => byAngle (m 3000) (m 3000) (m 3000) (m 3000) (m 3000) (m 3000) (m 3000) (m 3000) (m 3000)
  | .prTau => byAngle (m 2500) (m 2500) (m 2500) (m 2500) (m 2500) (m 2500) (m 2500) (m 2500) (m 2500)
  | .psigmaASA => byAngle (m 700) (m 660) (m 680) (m 640) (m 630) (m 540) (m 520) (m 530) (m 620)
  | .psigmaASD => byAngle (m 480) (m 360) (m 380) (m 320) (m 330) (m 390) (m 400) (m 320) (m 530)
  | .psigmaDS => byAngle (m 800) (m 670) (m 680) (m 660) (m 620) (m 510) (m 450) (m 310) (m 80)
  | .psigmaK => byAngle (m 3300) (m 6600) (m 6100) (m 4000) (m 3000) (m 2600) (m 2200) (m 2100) (m 1900)
  | .psigmaSF => byAngle (m 3500) (m 3400) (m 2900) (m 3000) (m 3100) (m 2700) (m 2500) (m 2300) (m 1200)
  | .psigmaXPR => byAngle (m 3800) (m 4700) (m 4600) (m 4900) (m 5700) (m 6900) (m 8100) (m 10300) (m 15200)
  | .psigmaZSA => byAngle (m 30) (m 90) (m 50) (m 30) (m 60) (m 50) (m 50) (m 20) (m 10)
  | .psigmaZSD => byAngle (m 500) (m 530) (m 580) (m 510) (m 460) (m 350) (m 310) (m 390) (m 280)
  | .pzeta => byAngle (m 3000) (m 3000) (m 3000) (m 3000) (m 3000) (m 3000) (m 3000) (m 3000) (m 3000)

/-- `/repo/OpenNTN/models/Dense_Urban_NLOS_Ka_band_DL.json` -/
def fileDenseUrbanNLOSKabandDL : ParamFile
  | .pCL => byAngle (m 44300) (m 39900) (m 37500) (m 35800) (m 34600) (m 33800) (m 33300) (m 33000) (m 32900)
  | .pCPhiNLoS => scalar (m 779)
  | .pCThetaNLoS => scalar (m 697)
  | .pLoSp => byAngle (m 282) (m 331) (m 398) (m 468) (m 537) (m 612) (m 738) (m 820) (m 981)
  | .pcASA => byAngle (m 15000) (m 15000) (m 15000) (m 15000) (m 15000) (m 15000) (m 15000) (m 15000) (m 15000)
  | .pcASD => byAngle (m 0) (m 0) (m 0) (m 0) (m 0) (m 0) (m 0) (m 0) (m 0)
  | .pcDS => byAngle (m 3900) (m 3900) (m 3900) (m 3900) (m 3900) (m 3900) (m 3900) (m 3900) (m 3900)
  | .pcZSA => byAngle (m 7000) (m 7000) (m 7000) (m 7000) (m 7000) (m 7000) (m 7000) (m 7000) (m 7000)
  | .pcorrASAvsDS => byAngle (m 600) (m 600) (m 600) (m 600) (m 600) (m 600) (m 600) (m 600) (m 600)
  | .pcorrASAvsK => byAngle (m 0) (m 0) (m 0) (m 0) (m 0) (m 0) (m 0) (m 0) (m 0)
  | .pcorrASAvsSF => byAngle (m 0) (m 0) (m 0) (m 0) (m 0) (m 0) (m 0) (m 0) (m 0)
  | .pcorrASDvsASA => byAngle (m 0) (m 0) (m 0) (m 0) (m 0) (m 0) (m 0) (m 0) (m 0)
  | .pcorrASDvsDS => byAngle (m 0) (m 0) (m 0) (m 0) (m 0) (m 0) (m 0) (m 0) (m 0)
  | .pcorrASDvsK => byAngle (m 0) (m 0) (m 0) (m 0) (m 0) (m 0) (m 0) (m 0) (m 0)
  | .pcorrASDvsSF => byAngle (m 0) (m 0) (m 0) (m 0) (m 0) (m 0) (m 0) (m 0) (m 0)
  | .pcorrDSvsK => byAngle (m 0) (m 0) (m 0) (m 0) (m 0) (m 0) (m 0) (m 0) (m 0)
  | .pcorrDSvsSF => byAngle (m (-400)) (m (-400)) (m (-400)) (m (-400)) (m (-400)) (m (-400)) (m (-400)) (m (-400)) (m (-400))
  | .pcorrDistASA => byAngle (m 50000) (m 50000) (m 50000) (m 50000) (m 50000) (m 50000) (m 50000) (m 50000) (m 50000)
  | .pcorrDistASD => byAngle (m 50000) (m 50000) (m 50000) (m 50000) (m 50000) (m 50000) (m 50000) (m 50000) (m 50000)
  | .pcorrDistDS => byAngle (m 40000) (m 40000) (m 40000) (m 40000) (m 40000) (m 40000) (m 40000) (m 40000) (m 40000)
  | .pcorrDistK => byAngle (m 1000) (m 1000) (m 1000) (m 1000) (m 1000) (m 1000) (m 1000) (m 1000) (m 1000)
  | .pcorrDistSF => byAngle (m 50000) (m 50000) (m 50000) (m 50000) (m 50000) (m 50000) (m 50000) (m 50000) (m 50000)
  | .pcorrDistZSA => byAngle (m 50000) (m 50000) (m 50000) (m 50000) (m 50000) (m 50000) (m 50000) (m 50000) (m 50000)
  | .pcorrDistZSD => byAngle (m 50000) (m 50000) (m 50000) (m 50000) (m 50000) (m 50000) (m 50000) (m 50000) (m 50000)
  | .pcorrSFvsK => byAngle (m 0) (m 0) (m 0) (m 0) (m 0) (m 0) (m 0) (m 0) (m 0)
  | .pcorrZSAvsASA => byAngle (m 0) (m 0) (m 0) (m 0) (m 0) (m 0) (m 0) (m 0) (m 0)
  | .pcorrZSAvsASD => byAngle (m 0) (m 0) (m 0) (m 0) (m 0) (m 0) (m 0) (m 0) (m 0)
  | .pcorrZSAvsDS => byAngle (m 0) (m 0) (m 0) (m 0) (m 0) (m 0) (m 0) (m 0) (m 0)
  | .pcorrZSAvsK => byAngle (m 0) (m 0) (m 0) (m 0) (m 0) (m 0) (m 0) (m 0) (m 0)
  | .pcorrZSAvsSF => byAngle (m (-400)) (m (-400)) (m (-400)) (m (-400)) (m (-400)) (m (-400)) (m (-400)) (m (-400)) (m (-400))
  | .pcorrZSDvsASA => byAngle (m 0) (m 0) (m 0) (m 0) (m 0) (m 0) (m 0) (m 0) (m 0)
  | .pcorrZSDvsASD => byAngle (m 0) (m 0) (m 0) (m 0) (m 0) (m 0) (m 0) (m 0) (m 0)
  | .pcorrZSDvsDS => byAngle (m 0) (m 0) (m 0) (m 0) (m 0) (m 0) (m 0) (m 0) (m 0)
  | .pcorrZSDvsK => byAngle (m 0) (m 0) (m 0) (m 0) (m 0) (m 0) (m 0) (m 0) (m 0)
  | .pcorrZSDvsSF => byAngle (m 0) (m 0) (m 0) (m 0) (m 0) (m 0) (m 0) (m 0) (m 0)
  | .pcorrZSDvsZSA => byAngle (m 0) (m 0) (m 0) (m 0) (m 0) (m 0) (m 0) (m 0) (m 0)
  | .pmuASA => byAngle (m 1020) (m 1440) (m 1480) (m 1460) (m 1400) (m 970) (m 1330) (m 1120) (m 1040)
  | .pmuASD => byAngle ninf ninf ninf ninf ninf ninf ninf ninf ninf
  | .pmuDS => byAngle (m (-6860)) (m (-6840)) (m (-7000)) (m (-7210)) (m (-7420)) (m (-7860)) (m (-7760)) (m (-8070)) (m (-7950))
  | .pmuK => byAngle (m 0) (m 0) (m 0) (m 0) (m 0) (m 0) (m 0) (m 0) (m 0)
  | .pmuXPR => byAngle (m 23700) (m 21800) (m 19600) (m 18000) (m 16300) (m 15900) (m 12300) (m 10500) (m 10500)
  | .pmuZSA => byAngle (m 1010) (m 960) (m 1130) (m 1300) (m 1400) (m 1410) (m 1630) (m 1680) (m 1700)
  | .pmuZSD => byAngle ninf ninf ninf ninf ninf ninf ninf ninf ninf
  | .pnumClusters => byAngle (m 4000) (m 4000) (m 4000) (m 4000) (m 4000) (m 4000) (m 4000) (m 4000) (m 4000)
  | .prTau => byAngle (m 2300) (m 2300) (m 2300) (m 2300) (m 2300) (m 2300) (m 2300) (m 2300) (m 2300)
  | .psigmaASA => byAngle (m 1440) (m 770) (m 700) (m 600) (m 590) (m 1270) (m 560) (m 1040) (m 630)
  | .psigmaASD => byAngle (m 0) (m 0) (m 0) (m 0) (m 0) (m 0) (m 0) (m 0) (m 0)
  | .psigmaDS => byAngle (m 810) (m 610) (m 560) (m 560) (m 570) (m 550) (m 470) (m 420) (m 590)
  | .psigmaK => byAngle (m 0) (m 0) (m 0) (m 0) (m 0) (m 0) (m 0) (m 0) (m 0)
  | .psigmaSF => byAngle (m 17100) (m 17100) (m 15600) (m 14600) (m 14200) (m 12600) (m 12100) (m 12300) (m 12300)
  | .psigmaXPR => byAngle (m 4500) (m 6300) (m 8200) (m 9400) (m 11500) (m 12400) (m 15000) (m 15700) (m 15700)
  | .psigmaZSA => byAngle (m 560) (m 550) (m 430) (m 370) (m 320) (m 450) (m 170) (m 140) (m 170)
  | .psigmaZSD => byAngle (m 0) (m 0) (m 0) (m 0) (m 0) (m 0) (m 0) (m 0) (m 0)
  | .pzeta => byAngle (m 3000) (m 3000) (m 3000) (m 3000) (m 3000) (m 3000) (m 3000) (m 3000) (m 3000)

/-- `/repo/OpenNTN/models/Dense_Urban_NLOS_Ka_band_UL.json` -/
def fileDenseUrbanNLOSKabandUL : ParamFile
  | .pCL => byAngle (m 44300) (m 39900) (m 37500) (m 35800) (m 34600) (m 33800) (m 33300) (m 33000) (m 32900)
  | .pCPhiNLoS => scalar (m 779)
  | .pCThetaNLoS => scalar (m 697)
  | .pLoSp => byAngle (m 282) (m 331) (m 398) (m 468) (m 537) (m 612) (m 738) (m 820) (m 981)
  | .pcASA => byAngle (m 15000) (m 15000) (m 15000) (m 15000) (m 15000) (m 15000) (m 15000) (m 15000) (m 15000)
  | .pcASD => byAngle (m 0) (m 0) (m 0) (m 0) (m 0) (m 0) (m 0) (m 0) (m 0)
  | .pcDS => byAngle (m 3900) (m 3900) (m 3900) (m 3900) (m 3900) (m 3900) (m 3900) (m 3900) (m 3900)
  | .pcZSA => byAngle (m 7000) (m 7000) (m 7000) (m 7000) (m 7000) (m 7000) (m 7000) (m 7000) (m 7000)
  | .pcorrASAvsDS => byAngle (m 600) (m 600) (m 600) (m 600) (m 600) (m 600) (m 600) (m 600) (m 600)
  | .pcorrASAvsK => byAngle (m 0) (m 0) (m 0) (m 0) (m 0) (m 0) (m 0) (m 0) (m 0)
  | .pcorrASAvsSF => byAngle (m 0) (m 0) (m 0) (m 0) (m 0) (m 0) (m 0) (m 0) (m 0)
  | .pcorrASDvsASA => byAngle (m 400) (m 400) (m 400) (m 400) (m 400) (m 400) (m 400) (m 400) (m 400)
  | .pcorrASDvsDS => byAngle (m 400) (m 400) (m 400) (m 400) (m 400) (m 400) (m 400) (m 400) (m 400)
  | .pcorrASDvsK => byAngle (m 0) (m 0) (m 0) (m 0) (m 0) (m 0) (m 0) (m 0) (m 0)
  | .pcorrASDvsSF => byAngle (m (-600)) (m (-600)) (m (-600)) (m (-600)) (m (-600)) (m (-600)) (m (-600)) (m (-600)) (m (-600))
  | .pcorrDSvsK => byAngle (m 0) (m 0) (m 0) (m 0) (m 0) (m 0) (m 0) (m 0) (m 0)
  | .pcorrDSvsSF => byAngle (m (-400)) (m (-400)) (m (-400)) (m (-400)) (m (-400)) (m (-400)) (m (-400)) (m (-400)) (m (-400))
  | .pcorrDistASA => byAngle (m 50000) (m 50000) (m 50000) (m 50000) (m 50000) (m 50000) (m 50000) (m 50000) (m 50000)
  | .pcorrDistASD => byAngle (m 50000) (m 50000) (m 50000) (m 50000) (m 50000) (m 50000) (m 50000) (m 50000) (m 50000)
  | .pcorrDistDS => byAngle (m 40000) (m 40000) (m 40000) (m 40000) (m 40000) (m 40000) (m 40000) (m 40000) (m 40000)
  | .pcorrDistK => byAngle (m 1000) (m 1000) (m 1000) (m 1000) (m 1000) (m 1000) (m 1000) (m 1000) (m 1000)
  | .pcorrDistSF => byAngle (m 50000) (m 50000) (m 50000) (m 50000) (m 50000) (m 50000) (m 50000) (m 50000) (m 50000)
  | .pcorrDistZSA => byAngle (m 50000) (m 50000) (m 50000) (m 50000) (m 50000) (m 50000) (m 50000) (m 50000) (m 50000)
  | .pcorrDistZSD => byAngle (m 50000) (m 50000) (m 50000) (m 50000) (m 50000) (m 50000) (m 50000) (m 50000) (m 50000)
  | .pcorrSFvsK => byAngle (m 0) (m 0) (m 0) (m 0) (m 0) (m 0) (m 0) (m 0) (m 0)
  | .pcorrZSAvsASA => byAngle (m 0) (m 0) (m 0) (m 0) (m 0) (m 0) (m 0) (m 0) (m 0)
  | .pcorrZSAvsASD => byAngle (m (-100)) (m (-100)) (m (-100)) (m (-100)) (m (-100)) (m (-100)) (m (-100)) (m (-100)) (m (-100))
  | .pcorrZSAvsDS => byAngle (m 0) (m 0) (m 0) (m 0) (m 0) (m 0) (m 0) (m 0) (m 0)
  | .pcorrZSAvsK => byAngle (m 0) (m 0) (m 0) (m 0) (m 0) (m 0) (m 0) (m 0) (m 0)
  | .pcorrZSAvsSF => byAngle (m (-400)) (m (-400)) (m (-400)) (m (-400)) (m (-400)) (m (-400)) (m (-400)) (m (-400)) (m (-400))
  | .pcorrZSDvsASA => byAngle (m 0) (m 0) (m 0) (m 0) (m 0) (m 0) (m 0) (m 0) (m 0)
  | .pcorrZSDvsASD => byAngle (m 500) (m 500) (m 500) (m 500) (m 500) (m 500) (m 500) (m 500) (m 500)
  | .pcorrZSDvsDS => byAngle (m (-500)) (m (-500)) (m (-500)) (m (-500)) (m (-500)) (m (-500)) (m (-500)) (m (-500)) (m (-500))
  | .pcorrZSDvsK => byAngle (m 0) (m 0) (m 0) (m 0) (m 0) (m 0) (m 0) (m 0) (m 0)
  | .pcorrZSDvsSF => byAngle (m 0) (m 0) (m 0) (m 0) (m 0) (m 0) (m 0) (m 0) (m 0)
  | .pcorrZSDvsZSA => byAngle (m 0) (m 0) (m 0) (m 0) (m 0) (m 0) (m 0) (m 0) (m 0)
  | .pmuASA => byAngle (m 1020) (m 1440) (m 1480) (m 1460) (m 1400) (m 970) (m 1330) (m 1120) (m 1040)
  | .pmuASD => byAngle (m (-2120)) (m (-1740)) (m (-1560)) (m (-1540)) (m (-1450)) (m (-1640)) (m (-1370)) (m (-1290)) (m (-410))
  | .pmuDS => byAngle (m (-6860)) (m (-6840)) (m (-7000)) (m (-7210)) (m (-7420)) (m (-7860)) (m (-7760)) (m (-8070)) (m (-7950))
  | .pmuK => byAngle (m 0) (m 0) (m 0) (m 0) (m 0) (m 0) (m 0) (m 0) (m 0)
  | .pmuXPR => byAngle (m 23700) (m 21800) (m 19600) (m 18000) (m 16300) (m 15900) (m 12300) (m 10500) (m 10500)
  | .pmuZSA => byAngle (m 1010) (m 960) (m 1130) (m 1300) (m 1400) (m 1410) (m 1630) (m 1680) (m 1700)
  | .pmuZSD => byAngle (m (-2110)) (m (-1690)) (m (-1520)) (m (-1510)) (m (-1540)) (m (-1840)) (m (-1860)) (m (-2160)) (m (-2210))
  | .pnumClusters => byAngle (m 4000) (m 4000) (m 4000) (m 4000) (m 4000) (m 4000) (m 4000) (m 4000) (m 4000)
  | .prTau => byAngle (m 2300) (m 2300) (m 2300) (m 2300) (m 2300) (m 2300) (m 2300) (m 2300) (m 2300)
  | .psigmaASA => byAngle (m 1440) (m 770) (m 700) (m 600) (m 590) (m 1270) (m 560) (m 1040) (m 630)
  | .psigmaASD => byAngle (m 940) (m 790) (m 660) (m 630) (m 560) (m 780) (m 560) (m 760) (m 590)
  | .psigmaDS => byAngle (m 810) (m 610) (m 560) (m 560) (m 570) (m 550) (m 470) (m 420) (m 590)
  | .psigmaK => byAngle (m 0) (m 0) (m 0) (m 0) (m 0) (m 0) (m 0) (m 0) (m 0)
  | .psigmaSF => byAngle (m 17100) (m 17100) (m 15600) (m 14600) (m 14200) (m 12600) (m 12100) (m 12300) (m 12300)
  | .psigmaXPR => byAngle (m 4500) (m 6300) (m 8200) (m 9400) (m 11500) (m 12400) (m 15000) (m 15700) (m 15700)
  | .psigmaZSA => byAngle (m 560) (m 550) (m 430) (m 370) (m 320) (m 450) (m 170) (m 140) (m 170)
  | .psigmaZSD => byAngle (m 590) (m 510) (m 460) (m 430) (m 450) (m 630) (m 510) (m 740) (m 610)
  | .pzeta => byAngle (m 3000) (m 3000) (m 3000) (m 3000) (m 3000) (m 3000) (m 3000) (m 3000) (m 3000)

/-- `/repo/OpenNTN/models/Dense_Urban_NLOS_S_band_DL.json` -/
def fileDenseUrbanNLOSSbandDL : ParamFile
  | .pCL => byAngle (m 34300) (m 30900) (m 29000) (m 27700) (m 26800) (m 26200) (m 25800) (m 25500) (m 25500)
  | .pCPhiNLoS => scalar (m 779)
  | .pCThetaNLoS => scalar (m 697)
  | .pLoSp => byAngle (m 282) (m 331) (m 398) (m 468) (m 537) (m 612) (m 738) (m 820) (m 981)
  | .pcASA => byAngle (m 15000) (m 15000) (m 15000) (m 15000) (m 15000) (m 15000) (m 15000) (m 15000) (m 15000)
  | .pcASD => byAngle (m 0) (m 0) (m 0) (m 0) (m 0) (m 0) (m 0) (m 0) (m 0)
  | .pcDS => byAngle (m 3900) (m 3900) (m 3900) (m 3900) (m 3900) (m 3900) (m 3900) (m 3900) (m 3900)
  | .pcZSA => byAngle (m 7000) (m 7000) (m 7000) (m 7000) (m 7000) (m 7000) (m 7000) (m 7000) (m 7000)
  | .pcorrASAvsDS => byAngle (m 600) (m 600) (m 600) (m 600) (m 600) (m 600) (m 600) (m 600) (m 600)
  | .pcorrASAvsK => byAngle (m 0) (m 0) (m 0) (m 0) (m 0) (m 0) (m 0) (m 0) (m 0)
  | .pcorrASAvsSF => byAngle (m 0) (m 0) (m 0) (m 0) (m 0) (m 0) (m 0) (m 0) (m 0)
  | .pcorrASDvsASA => byAngle (m 0) (m 0) (m 0) (m 0) (m 0) (m 0) (m 0) (m 0) (m 0)
  | .pcorrASDvsDS => byAngle (m 0) (m 0) (m 0) (m 0) (m 0) (m 0) (m 0) (m 0) (m 0)
  | .pcorrASDvsK => byAngle (m 0) (m 0) (m 0) (m 0) (m 0) (m 0) (m 0) (m 0) (m 0)
  | .pcorrASDvsSF => byAngle (m 0) (m 0) (m 0) (m 0) (m 0) (m 0) (m 0) (m 0) (m 0)
  | .pcorrDSvsK => byAngle (m 0) (m 0) (m 0) (m 0) (m 0) (m 0) (m 0) (m 0) (m 0)
  | .pcorrDSvsSF => byAngle (m (-400)) (m (-400)) (m (-400)) (m (-400)) (m (-400)) (m (-400)) (m (-400)) (m (-400)) (m (-400))
  | .pcorrDistASA => byAngle (m 50000) (m 50000) (m 50000) (m 50000) (m 50000) (m 50000) (m 50000) (m 50000) (m 50000)
  | .pcorrDistASD => byAngle (m 50000) (m 50000) (m 50000) (m 50000) (m 50000) (m 50000) (m 50000) (m 50000) (m 50000)
  | .pcorrDistDS => byAngle (m 40000) (m 40000) (m 40000) (m 40000) (m 40000) (m 40000) (m 40000) (m 40000) (m 40000)
  | .pcorrDistK => byAngle (m 1000) (m 1000) (m 1000) (m 1000) (m 1000) (m 1000) (m 1000) (m 1000) (m 1000)
  | .pcorrDistSF => byAngle (m 50000) (m 50000) (m 50000) (m 50000) (m 50000) (m 50000) (m 50000) (m 50000) (m 50000)
  | .pcorrDistZSA => byAngle (m 50000) (m 50000) (m 50000) (m 50000) (m 50000) (m 50000) (m 50000) (m 50000) (m 50000)
  | .pcorrDistZSD => byAngle (m 50000) (m 50000) (m 50000) (m 50000) (m 50000) (m 50000) (m 50000) (m 50000) (m 50000)
  | .pcorrSFvsK => byAngle (m 0) (m 0) (m 0) (m 0) (m 0) (m 0) (m 0) (m 0) (m 0)
  | .pcorrZSAvsASA => byAngle (m 0) (m 0) (m 0) (m 0) (m 0) (m 0) (m 0) (m 0) (m 0)
  | .pcorrZSAvsASD => byAngle (m 0) (m 0) (m 0) (m 0) (m 0) (m 0) (m 0) (m 0) (m 0)
  | .pcorrZSAvsDS => byAngle (m 0) (m 0) (m 0) (m 0) (m 0) (m 0) (m 0) (m 0) (m 0)
  | .pcorrZSAvsK => byAngle (m 0) (m 0) (m 0) (m 0) (m 0) (m 0) (m 0) (m 0) (m 0)
  | .pcorrZSAvsSF => byAngle (m (-400)) (m (-400)) (m (-400)) (m (-400)) (m (-400)) (m (-400)) (m (-400)) (m (-400)) (m (-400))
  | .pcorrZSDvsASA => byAngle (m 0) (m 0) (m 0) (m 0) (m 0) (m 0) (m 0) (m 0) (m 0)
  | .pcorrZSDvsASD => byAngle (m 0) (m 0) (m 0) (m 0) (m 0) (m 0) (m 0) (m 0) (m 0)
  | .pcorrZSDvsDS => byAngle (m 0) (m 0) (m 0) (m 0) (m 0) (m 0) (m 0) (m 0) (m 0)
  | .pcorrZSDvsK => byAngle (m 0) (m 0) (m 0) (m 0) (m 0) (m 0) (m 0) (m 0) (m 0)
  | .pcorrZSDvsSF => byAngle (m 0) (m 0) (m 0) (m 0) (m 0) (m 0) (m 0) (m 0) (m 0)
  | .pcorrZSDvsZSA => byAngle (m 0) (m 0) (m 0) (m 0) (m 0) (m 0) (m 0) (m 0) (m 0)
  | .pmuASA => byAngle (m 1000) (m 1440) (m 1540) (m 1530) (m 1480) (m 1390) (m 1420) (m 1380) (m 1230)
  | .pmuASD => byAngle ninf ninf ninf ninf ninf ninf ninf ninf ninf
  | .pmuDS => byAngle (m (-6840)) (m (-6810)) (m (-6940)) (m (-7140)) (m (-7340)) (m (-7530)) (m (-7670)) (m (-7820)) (m (-7840))
  | .pmuK => byAngle (m 0) (m 0) (m 0) (m 0) (m 0) (m 0) (m 0) (m 0) (m 0)
  | .pmuXPR => byAngle (m 23800) (m 21900) (m 19700) (m 18100) (m 16300) (m 14000) (m 12100) (m 8700) (m 6400)
  | .pmuZSA => byAngle (m 1000) (m 940) (m 1150) (m 1350) (m 1440) (m 1560) (m 1640) (m 1700) (m 1700)
  | .pmuZSD => byAngle ninf ninf ninf ninf ninf ninf ninf ninf ninf
  | .pnumClusters => byAngle (m 4000) (m 4000) (m 4000) (m 4000) (m 4000) (m 4000) (m 4000) (m 4000) (m 4000)
  | .prTau => byAngle (m 2300) (m 2300) (m 2300) (m 2300) (m 2300) (m 2300) (m 2300) (m 2300) (m 2300)
  | .psigmaASA => byAngle (m 1600) (m 870) (m 640) (m 560) (m 540) (m 680) (m 550) (m 600) (m 600)
  | .psigmaASD => byAngle (m 0) (m 0) (m 0) (m 0) (m 0) (m 0) (m 0) (m 0) (m 0)
  | .psigmaDS => byAngle (m 820) (m 610) (m 490) (m 490) (m 510) (m 470) (m 440) (m 420) (m 550)
  | .psigmaK => byAngle (m 0) (m 0) (m 0) (m 0) (m 0) (m 0) (m 0) (m 0) (m 0)
  | .psigmaSF => byAngle (m 15500) (m 13900) (m 12400) (m 11700) (m 10600) (m 10500) (m 10100) (m 9200) (m 9200)
  | .psigmaXPR => byAngle (m 4400) (m 6300) (m 8100) (m 9300) (m 11500) (m 13300) (m 14900) (m 17000) (m 12300)
  | .psigmaZSA => byAngle (m 630) (m 650) (m 420) (m 280) (m 250) (m 160) (m 180) (m 90) (m 170)
  | .psigmaZSD => byAngle (m 0) (m 0) (m 0) (m 0) (m 0) (m 0) (m 0) (m 0) (m 0)
  | .pzeta => byAngle (m 3000) (m 3000) (m 3000) (m 3000) (m 3000) (m 3000) (m 3000) (m 3000) (m 3000)

/-- `/repo/OpenNTN/models/Dense_Urban_NLOS_S_band_UL.json` -/
def fileDenseUrbanNLOSSbandUL : ParamFile
  | .pCL => byAngle (m 34300) (m 30900) (m 29000) (m 27700) (m 26800) (m 26200) (m 25800) (m 25500) (m 25500)
  | .pCPhiNLoS => scalar (m 779)
  | .pCThetaNLoS => scalar (m 697)
  | .pLoSp => byAngle (m 282) (m 331) (m 398) (m 468) (m 537) (m 612) (m 738) (m 820) (m 981)
  | .pcASA => byAngle (m 15000) (m 15000) (m 15000) (m 15000) (m 15000) (m 15000) (m 15000) (m 15000) (m 15000)
  | .pcASD => byAngle (m 0) (m 0) (m 0) (m 0) (m 0) (m 0) (m 0) (m 0) (m 0)
  | .pcDS => byAngle (m 3900) (m 3900) (m 3900) (m 3900) (m 3900) (m 3900) (m 3900) (m 3900) (m 3900)
  | .pcZSA => byAngle (m 7000) (m 7000) (m 7000) (m 7000) (m 7000) (m 7000) (m 7000) (m 7000) (m 7000)
  | .pcorrASAvsDS => byAngle (m 600) (m 600) (m 600) (m 600) (m 600) (m 600) (m 600) (m 600) (m 600)
  | .pcorrASAvsK => byAngle (m 0) (m 0) (m 0) (m 0) (m 0) (m 0) (m 0) (m 0) (m 0)
  | .pcorrASAvsSF => byAngle (m 0) (m 0) (m 0) (m 0) (m 0) (m 0) (m 0) (m 0) (m 0)
  | .pcorrASDvsASA => byAngle (m 400) (m 400) (m 400) (m 400) (m 400) (m 400) (m 400) (m 400) (m 400)
  | .pcorrASDvsDS => byAngle (m 400) (m 400) (m 400) (m 400) (m 400) (m 400) (m 400) (m 400) (m 400)
  | .pcorrASDvsK => byAngle (m 0) (m 0) (m 0) (m 0) (m 0) (m 0) (m 0) (m 0) (m 0)
  | .pcorrASDvsSF => byAngle (m (-600)) (m (-600)) (m (-600)) (m (-600)) (m (-600)) (m (-600)) (m (-600)) (m (-600)) (m (-600))
  | .pcorrDSvsK => byAngle (m 0) (m 0) (m 0) (m 0) (m 0) (m 0) (m 0) (m 0) (m 0)
  | .pcorrDSvsSF => byAngle (m (-400)) (m (-400)) (m (-400)) (m (-400)) (m (-400)) (m (-400)) (m (-400)) (m (-400)) (m (-400))
  | .pcorrDistASA => byAngle (m 50000) (m 50000) (m 50000) (m 50000) (m 50000) (m 50000) (m 50000) (m 50000) (m 50000)
  | .pcorrDistASD => byAngle (m 50000) (m 50000) (m 50000) (m 50000) (m 50000) (m 50000) (m 50000) (m 50000) (m 50000)
  | .pcorrDistDS => byAngle (m 40000) (m 40000) (m 40000) (m 40000) (m 40000) (m 40000) (m 40000) (m 40000) (m 40000)
  | .pcorrDistK => byAngle (m 1000) (m 1000) (m 1000) (m 1000) (m 1000) (m 1000) (m 1000) (m 1000) (m 1000)
  | .pcorrDistSF => byAngle (m 50000) (m 50000) (m 50000) (m 50000) (m 50000) (m 50000) (m 50000) (m 50000) (m 50000)
  | .pcorrDistZSA => byAngle (m 50000) (m 50000) (m 50000) (m 50000) (m 50000) (m 50000) (m 50000) (m 50000) (m 50000)
  | .pcorrDistZSD => byAngle (m 50000) (m 50000) (m 50000) (m 50000) (m 50000) (m 50000) (m 50000) (m 50000) (m 50000)
  | .pcorrSFvsK => byAngle (m 0) (m 0) (m 0) (m 0) (m 0) (m 0) (m 0) (m 0) (m 0)
  | .pcorrZSAvsASA => byAngle (m 0) (m 0) (m 0) (m 0) (m 0) (m 0) (m 0) (m 0) (m 0)
  | .pcorrZSAvsASD => byAngle (m (-100)) (m (-100)) (m (-100)) (m (-100)) (m (-100)) (m (-100)) (m (-100)) (m (-100)) (m (-100))
  | .pcorrZSAvsDS => byAngle (m 0) (m 0) (m 0) (m 0) (m 0) (m 0) (m 0) (m 0) (m 0)
  | .pcorrZSAvsK => byAngle (m 0) (m 0) (m 0) (m 0) (m 0) (m 0) (m 0) (m 0) (m 0)
  | .pcorrZSAvsSF => byAngle (m (-400)) (m (-400)) (m (-400)) (m (-400)) (m (-400)) (m (-400)) (m (-400)) (m (-400)) (m (-400))
  | .pcorrZSDvsASA => byAngle (m 0) (m 0) (m 0) (m 0) (m 0) (m 0) (m 0) (m 0) (m 0)
  | .pcorrZSDvsASD => byAngle (m 500) (m 500) (m 500) (m 500) (m 500) (m 500) (m 500) (m 500) (m 500)
  | .pcorrZSDvsDS => byAngle (m (-500)) (m (-500)) (m (-500)) (m (-500)) (m (-500)) (m (-500)) (m (-500)) (m (-500)) (m (-500))
  | .pcorrZSDvsK => byAngle (m 0) (m 0) (m 0) (m 0) (m 0) (m 0) (m 0) (m 0) (m 0)
  | .pcorrZSDvsSF => byAngle (m 0) (m 0) (m 0) (m 0) (m 0) (m 0) (m 0) (m 0) (m 0)
  | .pcorrZSDvsZSA => byAngle (m 0) (m 0) (m 0) (m 0) (m 0) (m 0) (m 0) (m 0) (m 0)
  | .pmuASA => byAngle (m 1000) (m 1440) (m 1540) (m 1530) (m 1480) (m 1390) (m 1420) (m 1380) (m 1230)
  | .pmuASD => byAngle (m (-2080)) (m (-1680)) (m (-1460)) (m (-1430)) (m (-1440)) (m (-1330)) (m (-1310)) (m (-1110)) (m (-110))
  | .pmuDS => byAngle (m (-6840)) (m (-6810)) (m (-6940)) (m (-7140)) (m (-7340)) (m (-7530)) (m (-7670)) (m (-7820)) (m (-7840))
  | .pmuK => byAngle (m 0) (m 0) (m 0) (m 0) (m 0) (m 0) (m 0) (m 0) (m 0)
  | .pmuXPR => byAngle (m 23800) (m 21900) (m 19700) (m 18100) (m 16300) (m 14000) (m 12100) (m 8700) (m 6400)
  | .pmuZSA => byAngle (m 1000) (m 940) (m 1150) (m 1350) (m 1440) (m 1560) (m 1640) (m 1700) (m 1700)
  | .pmuZSD => byAngle (m (-2080)) (m (-1660)) (m (-1480)) (m (-1460)) (m (-1530)) (m (-1610)) (m (-1770)) (m (-1900)) (m (-1990))
  | .pnumClusters => byAngle (m 4000) (m 4000) (m 4000) (m 4000) (m 4000) (m 4000) (m 4000) (m 4000) (m 4000)
  | .prTau => byAngle (m 2300) (m 2300) (m 2300) (m 2300) (m 2300) (m 2300) (m 2300) (m 2300) (m 2300)
  | .psigmaASA => byAngle (m 1600) (m 870) (m 640) (m 560) (m 540) (m 680) (m 550) (m 600) (m 600)
  | .psigmaASD => byAngle (m 870) (m 730) (m 530) (m 500) (m 580) (m 490) (m 650) (m 690) (m 530)
  | .psigmaDS => byAngle (m 820) (m 610) (m 490) (m 490) (m 510) (m 470) (m 440) (m 420) (m 550)
  | .psigmaK => byAngle (m 0) (m 0) (m 0) (m 0) (m 0) (m 0) (m 0) (m 0) (m 0)
  | .psigmaSF => byAngle (m 15500) (m 13900) (m 12400) (m 11700) (m 10600) (m 10500) (m 10100) (m 9200) (m 9200)
  | .psigmaXPR => byAngle (m 4400) (m 6300) (m 8100) (m 9300) (m 11500) (m 13300) (m 14900) (m 17000) (m 12300)
  | .psigmaZSA => byAngle (m 630) (m 650) (m 420) (m 280) (m 250) (m 160) (m 180) (m 90) (m 170)
  | .psigmaZSD => byAngle (m 580) (m 500) (m 400) (m 370) (m 470) (m 430) (m 500) (m 420) (m 500)
  | .pzeta => byAngle (m 3000) (m 3000) (m 3000) (m 3000) (m 3000) (m 3000) (m 3000) (m 3000) (m 3000)

/-- `/repo/OpenNTN/models/Sub_Urban_LOS_Ka_band_DL.json` -/
def fileSubUrbanLOSKabandDL : ParamFile
  | .pCL => absent
  | .pCPhiNLoS => scalar (m 680)
  | .pCThetaNLoS => scalar (m 594)
  | .pLoSp => byAngle (m 782) (m 869) (m 919) (m 929) (m 935) (m 940) (m 949) (m 952) (m 998)
  | .pcASA => byAngle (m 11000) (m 11000) (m 11000) (m 11000) (m 11000) (m 11000) (m 11000) (m 11000) (m 11000)
  | .pcASD => byAngle (m 0) (m 0) (m 0) (m 0) (m 0) (m 0) (m 0) (m 0) (m 0)
  | .pcDS => byAngle (m 1600) (m 1600) (m 1600) (m 1600) (m 1600) (m 1600) (m 1600) (m 1600) (m 1600)
  | .pcZSA => byAngle (m 7000) (m 7000) (m 7000) (m 7000) (m 7000) (m 7000) (m 7000) (m 7000) (m 7000)
  | .pcorrASAvsDS => byAngle (m 800) (m 800) (m 800) (m 800) (m 800) (m 800) (m 800) (m 800) (m 800)
  | .pcorrASAvsK => byAngle (m (-200)) (m (-200)) (m (-200)) (m (-200)) (m (-200)) (m (-200)) (m (-200)) (m (-200)) (m (-200))
  | .pcorrASAvsSF => byAngle (m (-500)) (m (-500)) (m (-500)) (m (-500)) (m (-500)) (m (-500)) (m (-500)) (m (-500)) (m (-500))
  | .pcorrASDvsASA => byAngle (m 0) (m 0) (m 0) (m 0) (m 0) (m 0) (m 0) (m 0) (m 0)
  | .pcorrASDvsDS => byAngle (m 0) (m 0) (m 0) (m 0) (m 0) (m 0) (m 0) (m 0) (m 0)
  | .pcorrASDvsK => byAngle (m 0) (m 0) (m 0) (m 0) (m 0) (m 0) (m 0) (m 0) (m 0)
  | .pcorrASDvsSF => byAngle (m 0) (m 0) (m 0) (m 0) (m 0) (m 0) (m 0) (m 0) (m 0)
  | .pcorrDSvsK => byAngle (m (-400)) (m (-400)) (m (-400)) (m (-400)) (m (-400)) (m (-400)) (m (-400)) (m (-400)) (m (-400))
  | .pcorrDSvsSF => byAngle (m (-400)) (m (-400)) (m (-400)) (m (-400)) (m (-400)) (m (-400)) (m (-400)) (m (-400)) (m (-400))
  | .pcorrDistASA => byAngle (m 15000) (m 15000) (m 15000) (m 15000) (m 15000) (m 15000) (m 15000) (m 15000) (m 15000)
  | .pcorrDistASD => byAngle (m 18000) (m 18000) (m 18000) (m 18000) (m 18000) (m 18000) (m 18000) (m 18000) (m 18000)
  | .pcorrDistDS => byAngle (m 30000) (m 30000) (m 30000) (m 30000) (m 30000) (m 30000) (m 30000) (m 30000) (m 30000)
  | .pcorrDistK => byAngle (m 12000) (m 12000) (m 12000) (m 12000) (m 12000) (m 12000) (m 12000) (m 12000) (m 12000)
  | .pcorrDistSF => byAngle (m 37000) (m 37000) (m 37000) (m 37000) (m 37000) (m 37000) (m 37000) (m 37000) (m 37000)
  | .pcorrDistZSA => byAngle (m 15000) (m 15000) (m 15000) (m 15000) (m 15000) (m 15000) (m 15000) (m 15000) (m 15000)
  | .pcorrDistZSD => byAngle (m 15000) (m 15000) (m 15000) (m 15000) (m 15000) (m 15000) (m 15000) (m 15000) (m 15000)
  | .pcorrSFvsK => byAngle (m 0) (m 0) (m 0) (m 0) (m 0) (m 0) (m 0) (m 0) (m 0)
  | .pcorrZSAvsASA => byAngle (m 400) (m 400) (m 400) (m 400) (m 400) (m 400) (m 400) (m 400) (m 400)
  | .pcorrZSAvsASD => byAngle (m 0) (m 0) (m 0) (m 0) (m 0) (m 0) (m 0) (m 0) (m 0)
  | .pcorrZSAvsDS => byAngle (m 0) (m 0) (m 0) (m 0) (m 0) (m 0) (m 0) (m 0) (m 0)
  | .pcorrZSAvsK => byAngle (m 0) (m 0) (m 0) (m 0) (m 0) (m 0) (m 0) (m 0) (m 0)
  | .pcorrZSAvsSF => byAngle (m (-800)) (m (-800)) (m (-800)) (m (-800)) (m (-800)) (m (-800)) (m (-800)) (m (-800)) (m (-800))
  | .pcorrZSDvsASA => byAngle (m 0) (m 0) (m 0) (m 0) (m 0) (m 0) (m 0) (m 0) (m 0)
  | .pcorrZSDvsASD => byAngle (m 0) (m 0) (m 0) (m 0) (m 0) (m 0) (m 0) (m 0) (m 0)
  | .pcorrZSDvsDS => byAngle (m 0) (m 0) (m 0) (m 0) (m 0) (m 0) (m 0) (m 0) (m 0)
  | .pcorrZSDvsK => byAngle (m 0) (m 0) (m 0) (m 0) (m 0) (m 0) (m 0) (m 0) (m 0)
  | .pcorrZSDvsSF => byAngle (m 0) (m 0) (m 0) (m 0) (m 0) (m 0) (m 0) (m 0) (m 0)
  | .pcorrZSDvsZSA => byAngle (m 0) (m 0) (m 0) (m 0) (m 0) (m 0) (m 0) (m 0) (m 0)
  | .pmuASA => byAngle (m 890) (m 310) (m 20) (m (-100)) (m (-190)) (m (-540)) (m (-240)) (m (-520)) (m (-150))
  | .pmuASD => byAngle ninf ninf ninf ninf ninf ninf ninf ninf ninf
  | .pmuDS => byAngle (m (-8070)) (m (-8610)) (m (-8720)) (m (-8630)) (m (-8540)) (m (-8480)) (m (-8420)) (m (-8390)) (m (-8370))
  | .pmuK => byAngle (m 8900) (m 14000) (m 11300) (m 9000) (m 7500) (m 6600) (m 5900) (m 5500) (m 5400)
  | .pmuXPR => byAngle (m 23200) (m 23600) (m 23500) (m 23400) (m 23200) (m 23300) (m 23400) (m 23200) (m 23100)
  | .pmuZSA => byAngle (m 630) (m 760) (m 1110) (m 1370) (m 1530) (m 1650) (m 1740) (m 1820) (m 1870)
  | .pmuZSD => byAngle ninf ninf ninf ninf ninf ninf ninf ninf ninf
  | .pnumClusters => byAngle (m 3000) (m 3000) (m 3000) (m 3000) (m 3000) (m 3000) (m 2000) (m 2000) (m 2000)
  | .prTau => byAngle (m 2500) (m 2500) (m 2500) (m 2500) (m 2500) (m 2500) (m 2500) (m 2500) (m 2500)
  | .psigmaASA => byAngle (m 670) (m 780) (m 750) (m 650) (m 550) (m 960) (m 430) (m 930) (m 440)
  | .psigmaASD => byAngle (m 0) (m 0) (m 0) (m 0) (m 0) (m 0) (m 0) (m 0) (m 0)
  | .psigmaDS => byAngle (m 460) (m 450) (m 280) (m 170) (m 140) (m 150) (m 90) (m 50) (m 20)
  | .psigmaK => byAngle (m 4400) (m 4600) (m 3700) (m 3500) (m 3000) (m 2600) (m 1700) (m 700) (m 300)
  | .psigmaSF => byAngle (m 1900) (m 1600) (m 1900) (m 2300) (m 2700) (m 3100) (m 3000) (m 3600) (m 400)
  | .psigmaXPR => byAngle (m 5000) (m 4500) (m 4700) (m 5200) (m 5700) (m 5900) (m 6200) (m 7000) (m 7600)
  | .psigmaZSA => byAngle (m 350) (m 300) (m 280) (m 230) (m 230) (m 170) (m 110) (m 50) (m 20)
  | .psigmaZSD => byAngle (m 0) (m 0) (m 0) (m 0) (m 0) (m 0) (m 0) (m 0) (m 0)
  | .pzeta => byAngle (m 3000) (m 3000) (m 3000) (m 3000) (m 3000) (m 3000) (m 3000) (m 3000) (m 3000)

/-- `/repo/OpenNTN/models/Sub_Urban_LOS_Ka_band_UL.json` -/
def fileSubUrbanLOSKabandUL : ParamFile
  | .pCL => absent
  | .pCPhiNLoS => scalar (m 680)
  | .pCThetaNLoS => scalar (m 594)
  | .pLoSp => byAngle (m 782) (m 869) (m 919) (m 929) (m 935) (m 940) (m 949) (m 952) (m 998)
  | .pcASA => byAngle (m 11000) (m 11000) (m 11000) (m 11000) (m 11000) (m 11000) (m 11000) (m 11000) (m 11000)
  | .pcASD => byAngle (m 0) (m 0) (m 0) (m 0) (m 0) (m 0) (m 0) (m 0) (m 0)
  | .pcDS => byAngle (m 1600) (m 1600) (m 1600) (m 1600) (m 1600) (m 1600) (m 1600) (m 1600) (m 1600)
  | .pcZSA => byAngle (m 7000) (m 7000) (m 7000) (m 7000) (m 7000) (m 7000) (m 7000) (m 7000) (m 7000)
  | .pcorrASAvsDS => byAngle (m 800) (m 800) (m 800) (m 800) (m 800) (m 800) (m 800) (m 800) (m 800)
  | .pcorrASAvsK => byAngle (m (-200)) (m (-200)) (m (-200)) (m (-200)) (m (-200)) (m (-200)) (m (-200)) (m (-200)) (m (-200))
  | .pcorrASAvsSF => byAngle (m (-500)) (m (-500)) (m (-500)) (m (-500)) (m (-500)) (m (-500)) (m (-500)) (m (-500)) (m (-500))
  | .pcorrASDvsASA => byAngle (m 0) (m 0) (m 0) (m 0) (m 0) (m 0) (m 0) (m 0) (m 0)
  | .pcorrASDvsDS => byAngle (m 400) (m 400) (m 400) (m 400) (m 400) (m 400) (m 400) (m 400) (m 400)
  | .pcorrASDvsK => byAngle (m 0) (m 0) (m 0) (m 0) (m 0) (m 0) (m 0) (m 0) (m 0)
  | .pcorrASDvsSF => byAngle (m (-500)) (m (-500)) (m (-500)) (m (-500)) (m (-500)) (m (-500)) (m (-500)) (m (-500)) (m (-500))
  | .pcorrDSvsK => byAngle (m (-400)) (m (-400)) (m (-400)) (m (-400)) (m (-400)) (m (-400)) (m (-400)) (m (-400)) (m (-400))
  | .pcorrDSvsSF => byAngle (m (-400)) (m (-400)) (m (-400)) (m (-400)) (m (-400)) (m (-400)) (m (-400)) (m (-400)) (m (-400))
  | .pcorrDistASA => byAngle (m 15000) (m 15000) (m 15000) (m 15000) (m 15000) (m 15000) (m 15000) (m 15000) (m 15000)
  | .pcorrDistASD => byAngle (m 18000) (m 18000) (m 18000) (m 18000) (m 18000) (m 18000) (m 18000) (m 18000) (m 18000)
  | .pcorrDistDS => byAngle (m 30000) (m 30000) (m 30000) (m 30000) (m 30000) (m 30000) (m 30000) (m 30000) (m 30000)
  | .pcorrDistK => byAngle (m 12000) (m 12000) (m 12000) (m 12000) (m 12000) (m 12000) (m 12000) (m 12000) (m 12000)
  | .pcorrDistSF => byAngle (m 37000) (m 37000) (m 37000) (m 37000) (m 37000) (m 37000) (m 37000) (m 37000) (m 37000)
  | .pcorrDistZSA => byAngle (m 15000) (m 15000) (m 15000) (m 15000) (m 15000) (m 15000) (m 15000) (m 15000) (m 15000)
  | .pcorrDistZSD => byAngle (m 15000) (m 15000) (m 15000) (m 15000) (m 15000) (m 15000) (m 15000) (m 15000) (m 15000)
  | .pcorrSFvsK => byAngle (m 0) (m 0) (m 0) (m 0) (m 0) (m 0) (m 0) (m 0) (m 0)
  | .pcorrZSAvsASA => byAngle (m 400) (m 400) (m 400) (m 400) (m 400) (m 400) (m 400) (m 400) (m 400)
  | .pcorrZSAvsASD => byAngle (m 0) (m 0) (m 0) (m 0) (m 0) (m 0) (m 0) (m 0) (m 0)
  | .pcorrZSAvsDS => byAngle (m 0) (m 0) (m 0) (m 0) (m 0) (m 0) (m 0) (m 0) (m 0)
  | .pcorrZSAvsK => byAngle (m 0) (m 0) (m 0) (m 0) (m 0) (m 0) (m 0) (m 0) (m 0)
  | .pcorrZSAvsSF => byAngle (m (-800)) (m (-800)) (m (-800)) (m (-800)) (m (-800)) (m (-800)) (m (-800)) (m (-800)) (m (-800))
  | .pcorrZSDvsASA => byAngle (m (-300)) (m (-300)) (m (-300)) (m (-300)) (m (-300)) (m (-300)) (m (-300)) (m (-300)) (m (-300))
  | .pcorrZSDvsASD => byAngle (m 500) (m 500) (m 500) (m 500) (m 500) (m 500) (m 500) (m 500) (m 500)
  | .pcorrZSDvsDS => byAngle (m (-200)) (m (-200)) (m (-200)) (m (-200)) (m (-200)) (m (-200)) (m (-200)) (m (-200)) (m (-200))
  | .pcorrZSDvsK => byAngle (m 0) (m 0) (m 0) (m 0) (m 0) (m 0) (m 0) (m 0) (m 0)
  | .pcorrZSDvsSF => byAngle (m 0) (m 0) (m 0) (m 0) (m 0) (m 0) (m 0) (m 0) (m 0)
  | .pcorrZSDvsZSA => byAngle (m 0) (m 0) (m 0) (m 0) (m 0) (m 0) (m 0) (m 0) (m 0)
  | .pmuASA => byAngle (m 890) (m 310) (m 20) (m (-100)) (m (-190)) (m (-540)) (m (-240)) (m (-520)) (m (-150))
  | .pmuASD => byAngle (m (-3550)) (m (-3690)) (m (-3590)) (m (-3380)) (m (-3230)) (m (-3190)) (m (-2830)) (m (-2660)) (m (-1220))
  | .pmuDS => byAngle (m (-8070)) (m (-8610)) (m (-8720)) (m (-8630)) (m (-8540)) (m (-8480)) (m (-8420)) (m (-8390)) (m (-8370))
  | .pmuK => byAngle (m 8900) (m 14000) (m 11300) (m 9000) (m 7500) (m 6600) (m 5900) (m 5500) (m 5400)
  | .pmuXPR => byAngle (m 23200) (m 23600) (m 23500) (m 23400) (m 23200) (m 23300) (m 23400) (m 23200) (m 23100)
  | .pmuZSA => byAngle (m 630) (m 760) (m 1110) (m 1370) (m 1530) (m 1650) (m 1740) (m 1820) (m 1870)
  | .pmuZSD => byAngle (m (-3370)) (m (-3280)) (m (-3040)) (m (-2880)) (m (-2830)) (m (-2860)) (m (-2950)) (m (-3210)) (m (-3490))
  | .pnumClusters => byAngle (m 3000) (m 3000) (m 3000) (m 3000) (m 3000) (m 3000) (m 2000) (m 2000) (m 2000)
  | .prTau => byAngle (m 2500) (m 2500) (m 2500) (m 2500) (m 2500) (m 2500) (m 2500) (m 2500) (m 2500)
  | .psigmaASA => byAngle (m 670) (m 780) (m 750) (m 650) (m 550) (m 960) (m 430) (m 930) (m 440)
  | .psigmaASD => byAngle (m 480) (m 410) (m 410) (m 350) (m 350) (m 430) (m 330) (m 440) (m 310)
  | .psigmaDS => byAngle (m 460) (m 450) (m 280) (m 170) (m 140) (m 150) (m 90) (m 50) (m 20)
  | .psigmaK => byAngle (m 4400) (m 4600) (m 3700) (m 3500) (m 3000) (m 2600) (m 1700) (m 700) (m 300)
  | .psigmaSF => byAngle (m 1900) (m 1600) (m 1900) (m 2300) (m 2700) (m 3100) (m 3000) (m 3600) (m 400)
  | .psigmaXPR => byAngle (m 5000) (m 4500) (m 4700) (m 5200) (m 5700) (m 5900) (m 6200) (m 7000) (m 7600)
  | .psigmaZSA => byAngle (m 350) (m 300) (m 280) (m 230) (m 230) (m 170) (m 110) (m 50) (m 20)
  | .psigmaZSD => byAngle (m 280) (m 270) (m 260) (m 210) (m 180) (m 170) (m 100) (m 70) (m 240)
  | .pzeta => byAngle (m 3000) (m 3000) (m 3000) (m 3000) (m 3000) (m 3000) (m 3000) (m 3000) (m 3000)

/-- `/repo/OpenNTN/models/Sub_Urban_LOS_S_band_DL.json` -/
def fileSubUrbanLOSSbandDL : ParamFile
  | .pCL => absent
  | .pCPhiNLoS => scalar (m 680)
  | .pCThetaNLoS => scalar (m 594)
  | .pLoSp => byAngle (m 782) (m 869) (m 919) (m 929) (m 935) (m 940) (m 949) (m 952) (m 998)
  | .pcASA => byAngle (m 11000) (m 11000) (m 11000) (m 11000) (m 11000) (m 11000) (m 11000) (m 11000) (m 11000)
  | .pcASD => byAngle (m 0) (m 0) (m 0) (m 0) (m 0) (m 0) (m 0) (m 0) (m 0)
  | .pcDS => byAngle (m 1600) (m 1600) (m 1600) (m 1600) (m 1600) (m 1600) (m 1600) (m 1600) (m 1600)
  | .pcZSA => byAngle (m 7000) (m 7000) (m 7000) (m 7000) (m 7000) (m 7000) (m 7000) (m 7000) (m 7000)
  | .pcorrASAvsDS => byAngle (m 800) (m 800) (m 800) (m 800) (m 800) (m 800) (m 800) (m 800) (m 800)
  | .pcorrASAvsK => byAngle (m (-200)) (m (-200)) (m (-200)) (m (-200)) (m (-200)) (m (-200)) (m (-200)) (m (-200)) (m (-200))
  | .pcorrASAvsSF => byAngle (m (-500)) (m (-500)) (m (-500)) (m (-500)) (m (-500)) (m (-500)) (m (-500)) (m (-500)) (m (-500))
  | .pcorrASDvsASA => byAngle (m 0) (m 0) (m 0) (m 0) (m 0) (m 0) (m 0) (m 0) (m 0)
  | .pcorrASDvsDS => byAngle (m 0) (m 0) (m 0) (m 0) (m 0) (m 0) (m 0) (m 0) (m 0)
  | .pcorrASDvsK => byAngle (m 0) (m 0) (m 0) (m 0) (m 0) (m 0) (m 0) (m 0) (m 0)
  | .pcorrASDvsSF => byAngle (m 0) (m 0) (m 0) (m 0) (m 0) (m 0) (m 0) (m 0) (m 0)
  | .pcorrDSvsK => byAngle (m (-400)) (m (-400)) (m (-400)) (m (-400)) (m (-400)) (m (-400)) (m (-400)) (m (-400)) (m (-400))
  | .pcorrDSvsSF => byAngle (m (-400)) (m (-400)) (m (-400)) (m (-400)) (m (-400)) (m (-400)) (m (-400)) (m (-400)) (m (-400))
  | .pcorrDistASA => byAngle (m 15000) (m 15000) (m 15000) (m 15000) (m 15000) (m 15000) (m 15000) (m 15000) (m 15000)
  | .pcorrDistASD => byAngle (m 18000) (m 18000) (m 18000) (m 18000) (m 18000) (m 18000) (m 18000) (m 18000) (m 18000)
  | .pcorrDistDS => byAngle (m 30000) (m 30000) (m 30000) (m 30000) (m 30000) (m 30000) (m 30000) (m 30000) (m 30000)
  | .pcorrDistK => byAngle (m 12000) (m 12000) (m 12000) (m 12000) (m 12000) (m 12000) (m 12000) (m 12000) (m 12000)
  | .pcorrDistSF => byAngle (m 37000) (m 37000) (m 37000) (m 37000) (m 37000) (m 37000) (m 37000) (m 37000) (m 37000)
  | .pcorrDistZSA => byAngle (m 15000) (m 15000) (m 15000) (m 15000) (m 15000) (m 15000) (m 15000) (m 15000) (m 15000)
  | .pcorrDistZSD => byAngle (m 15000) (m 15000) (m 15000) (m 15000) (m 15000) (m 15000) (m 15000) (m 15000) (m 15000)
  | .pcorrSFvsK => byAngle (m 0) (m 0) (m 0) (m 0) (m 0) (m 0) (m 0) (m 0) (m 0)
  | .pcorrZSAvsASA => byAngle (m 400) (m 400) (m 400) (m 400) (m 400) (m 400) (m 400) (m 400) (m 400)
  | .pcorrZSAvsASD => byAngle (m 0) (m 0) (m 0) (m 0) (m 0) (m 0) (m 0) (m 0) (m 0)
  | .pcorrZSAvsDS => byAngle (m 0) (m 0) (m 0) (m 0) (m 0) (m 0) (m 0) (m 0) (m 0)
  | .pcorrZSAvsK => byAngle (m 0) (m 0) (m 0) (m 0) (m 0) (m 0) (m 0) (m 0) (m 0)
  | .pcorrZSAvsSF => byAngle (m (-800)) (m (-800)) (m (-800)) (m (-800)) (m (-800)) (m (-800)) (m (-800)) (m (-800)) (m (-800))
  | .pcorrZSDvsASA => byAngle (m 0) (m 0) (m 0) (m 0) (m 0) (m 0) (m 0) (m 0) (m 0)
  | .pcorrZSDvsASD => byAngle (m 0) (m 0) (m 0) (m 0) (m 0) (m 0) (m 0) (m 0) (m 0)
  | .pcorrZSDvsDS => byAngle (m 0) (m 0) (m 0) (m 0) (m 0) (m 0) (m 0) (m 0) (m 0)
  | .pcorrZSDvsK => byAngle (m 0) (m 0) (m 0) (m 0) (m 0) (m 0) (m 0) (m 0) (m 0)
  | .pcorrZSDvsSF => byAngle (m 0) (m 0) (m 0) (m 0) (m 0) (m 0) (m 0) (m 0) (m 0)
  | .pcorrZSDvsZSA => byAngle (m 0) (m 0) (m 0) (m 0) (m 0) (m 0) (m 0) (m 0) (m 0)
  | .pmuASA => byAngle (m 50) (m (-380)) (m (-560)) (m (-590)) (m (-580)) (m (-550)) (m (-280)) (m (-170)) (m (-170))
  | .pmuASD => byAngle ninf ninf ninf ninf ninf ninf ninf ninf ninf
  | .pmuDS => byAngle (m (-8160)) (m (-8560)) (m (-8720)) (m (-8710)) (m (-8720)) (m (-8660)) (m (-8380)) (m (-8340)) (m (-8340))
  | .pmuK => byAngle (m 11400) (m 19450) (m 20800) (m 21200) (m 21600) (m 19750) (m 12000) (m 12850) (m 12850)
  | .pmuXPR => byAngle (m 21300) (m 21000) (m 21200) (m 21100) (m 20700) (m 20600) (m 20300) (m 19800) (m 19100)
  | .pmuZSA => byAngle (m (-1780)) (m (-1840)) (m (-1670)) (m (-1590)) (m (-1550)) (m (-1510)) (m (-1270)) (m (-1280)) (m (-1280))
  | .pmuZSD => byAngle ninf ninf ninf ninf ninf ninf ninf ninf ninf
  | .pnumClusters => byAngle (m 3000) (m 3000) (m 3000) (m 3000) (m 3000) (m 3000) (m 2000) (m 2000) (m 2000)
  | .prTau => byAngle (m 2200) (m 3360) (m 3500) (m 2810) (m 2390) (m 2730) (m 2070) (m 2040) (m 2040)
  | .psigmaASA => byAngle (m 1840) (m 1940) (m 1750) (m 1820) (m 1870) (m 1920) (m 1160) (m 1090) (m 1090)
  | .psigmaASD => byAngle (m 0) (m 0) (m 0) (m 0) (m 0) (m 0) (m 0) (m 0) (m 0)
  | .psigmaDS => byAngle (m 990) (m 960) (m 790) (m 810) (m 1120) (m 1230) (m 550) (m 630) (m 630)
  | .psigmaK => byAngle (m 6260) (m 10320) (m 16340) (m 15630) (m 14220) (m 14190) (m 5700) (m 9910) (m 9910)
  | .psigmaSF => byAngle (m 1790) (m 1140) (m 1140) (m 920) (m 1420) (m 1560) (m 850) (m 720) (m 720)
  | .psigmaXPR => byAngle (m 7600) (m 8900) (m 8500) (m 8400) (m 9200) (m 9800) (m 10800) (m 12200) (m 13000)
  | .psigmaZSA => byAngle (m 620) (m 810) (m 570) (m 860) (m 1050) (m 1230) (m 540) (m 670) (m 670)
  | .psigmaZSD => byAngle (m 0) (m 0) (m 0) (m 0) (m 0) (m 0) (m 0) (m 0) (m 0)
  | .pzeta => byAngle (m 3000) (m 3000) (m 3000) (m 3000) (m 3000) (m 3000) (m 3000) (m 3000) (m 3000)

/-- `/repo/OpenNTN/models/Sub_Urban_LOS_S_band_UL.json` -/
def fileSubUrbanLOSSbandUL : ParamFile
  | .pCL => absent
  | .pCPhiNLoS => scalar (m 680)
  | .pCThetaNLoS => scalar (m 594)
  | .pLoSp => byAngle (m 782) (m 869) (m 919) (m 929) (m 935) (m 940) (m 949) (m 952) (m 998)
  | .pcASA => byAngle (m 11000) (m 11000) (m 11000) (m 11000) (m 11000) (m 11000) (m 11000) (m 11000) (m 11000)
  | .pcASD => byAngle (m 0) (m 0) (m 0) (m 0) (m 0) (m 0) (m 0) (m 0) (m 0)
  | .pcDS => byAngle (m 1600) (m 1600) (m 1600) (m 1600) (m 1600) (m 1600) (m 1600) (m 1600) (m 1600)
  | .pcZSA => byAngle (m 7000) (m 7000) (m 7000) (m 7000) (m 7000) (m 7000) (m 7000) (m 7000) (m 7000)
  | .pcorrASAvsDS => byAngle (m 800) (m 800) (m 800) (m 800) (m 800) (m 800) (m 800) (m 800) (m 800)
  | .pcorrASAvsK => byAngle (m (-200)) (m (-200)) (m (-200)) (m (-200)) (m (-200)) (m (-200)) (m (-200)) (m (-200)) (m (-200))
  | .pcorrASAvsSF => byAngle (m (-500)) (m (-500)) (m (-500)) (m (-500)) (m (-500)) (m (-500)) (m (-500)) (m (-500)) (m (-500))
  | .pcorrASDvsASA => byAngle (m 0) (m 0) (m 0) (m 0) (m 0) (m 0) (m 0) (m 0) (m 0)
  | .pcorrASDvsDS => byAngle (m 400) (m 400) (m 400) (m 400) (m 400) (m 400) (m 400) (m 400) (m 400)
  | .pcorrASDvsK => byAngle (m 0) (m 0) (m 0) (m 0) (m 0) (m 0) (m 0) (m 0) (m 0)
  | .pcorrASDvsSF => byAngle (m (-500)) (m (-500)) (m (-500)) (m (-500)) (m (-500)) (m (-500)) (m (-500)) (m (-500)) (m (-500))
  | .pcorrDSvsK => byAngle (m (-400)) (m (-400)) (m (-400)) (m (-400)) (m (-400)) (m (-400)) (m (-400)) (m (-400)) (m (-400))
  | .pcorrDSvsSF => byAngle (m (-400)) (m (-400)) (m (-400)) (m (-400)) (m (-400)) (m (-400)) (m (-400)) (m (-400)) (m (-400))
  | .pcorrDistASA => byAngle (m 15000) (m 15000) (m 15000) (m 15000) (m 15000) (m 15000) (m 15000) (m 15000) (m 15000)
  | .pcorrDistASD => byAngle (m 18000) (m 18000) (m 18000) (m 18000) (m 18000) (m 18000) (m 18000) (m 18000) (m 18000)
  | .pcorrDistDS => byAngle (m 30000) (m 30000) (m 30000) (m 30000) (m 30000) (m 30000) (m 30000) (m 30000) (m 30000)
  | .pcorrDistK => byAngle (m 12000) (m 12000) (m 12000) (m 12000) (m 12000) (m 12000) (m 12000) (m 12000) (m 12000)
  | .pcorrDistSF => byAngle (m 37000) (m 37000) (m 37000) (m 37000) (m 37000) (m 37000) (m 37000) (m 37000) (m 37000)
  | .pcorrDistZSA => byAngle (m 15000) (m 15000) (m 15000) (m 15000) (m 15000) (m 15000) (m 15000) (m 15000) (m 15000)
  | .pcorrDistZSD => byAngle (m 15000) (m 15000) (m 15000) (m 15000) (m 15000) (m 15000) (m 15000) (m 15000) (m 15000)
  | .pcorrSFvsK => byAngle (m 0) (m 0) (m 0) (m 0) (m 0) (m 0) (m 0) (m 0) (m 0)
  | .pcorrZSAvsASA => byAngle (m 400) (m 400) (m 400) (m 400) (m 400) (m 400) (m 400) (m 400) (m 400)
  | .pcorrZSAvsASD => byAngle (m 0) (m 0) (m 0) (m 0) (m 0) (m 0) (m 0) (m 0) (m 0)
  | .pcorrZSAvsDS => byAngle (m 0) (m 0) (m 0) (m 0) (m 0) (m 0) (m 0) (m 0) (m 0)
  | .pcorrZSAvsK => byAngle (m 0) (m 0) (m 0) (m 0) (m 0) (m 0) (m 0) (m 0) (m 0)
  | .pcorrZSAvsSF => byAngle (m (-800)) (m (-800)) (m (-800)) (m (-800)) (m (-800)) (m (-800)) (m (-800)) (m (-800)) (m (-800))
  | .pcorrZSDvsASA => byAngle (m (-300)) (m (-300)) (m (-300)) (m (-300)) (m (-300)) (m (-300)) (m (-300)) (m (-300)) (m (-300))
  | .pcorrZSDvsASD => byAngle (m 500) (m 500) (m 500) (m 500) (m 500) (m 500) (m 500) (m 500) (m 500)
  | .pcorrZSDvsDS => byAngle (m (-200)) (m (-200)) (m (-200)) (m (-200)) (m (-200)) (m (-200)) (m (-200)) (m (-200)) (m (-200))
  | .pcorrZSDvsK => byAngle (m 0) (m 0) (m 0) (m 0) (m 0) (m 0) (m 0) (m 0) (m 0)
  | .pcorrZSDvsSF => byAngle (m 0) (m 0) (m 0) (m 0) (m 0) (m 0) (m 0) (m 0) (m 0)
  | .pcorrZSDvsZSA => byAngle (m 0) (m 0) (m 0) (m 0) (m 0) (m 0) (m 0) (m 0) (m 0)
  | .pmuASA => byAngle (m 50) (m (-380)) (m (-560)) (m (-590)) (m (-580)) (m (-550)) (m (-280)) (m (-170)) (m (-170))
  | .pmuASD => byAngle (m (-3570)) (m (-3800)) (m (-3770)) (m (-3570)) (m (-3420)) (m (-3270)) (m (-3080)) (m (-2750)) (m (-2750))
  | .pmuDS => byAngle (m (-8160)) (m (-8560)) (m (-8720)) (m (-8710)) (m (-8720)) (m (-8660)) (m (-8380)) (m (-8340)) (m (-8340))
  | .pmuK => byAngle (m 11400) (m 19450) (m 20800) (m 21200) (m 21600) (m 19750) (m 12000) (m 12850) (m 12850)
  | .pmuXPR => byAngle (m 21300) (m 21000) (m 21200) (m 21100) (m 20700) (m 20600) (m 20300) (m 19800) (m 19100)
  | .pmuZSA => byAngle (m (-1780)) (m (-1840)) (m (-1670)) (m (-1590)) (m (-1550)) (m (-1510)) (m (-1270)) (m (-1280)) (m (-1280))
  | .pmuZSD => byAngle (m (-1060)) (m (-1210)) (m (-1280)) (m (-1320)) (m (-1390)) (m (-1360)) (m (-1080)) (m (-1310)) (m (-1310))
  | .pnumClusters => byAngle (m 3000) (m 3000) (m 3000) (m 3000) (m 3000) (m 3000) (m 2000) (m 2000) (m 2000)
  | .prTau => byAngle (m 2200) (m 3360) (m 3500) (m 2810) (m 2390) (m 2730) (m 2070) (m 2040) (m 2040)
  | .psigmaASA => byAngle (m 1840) (m 1940) (m 1750) (m 1820) (m 1870) (m 1920) (m 1160) (m 1090) (m 1090)
  | .psigmaASD => byAngle (m 1620) (m 1740) (m 1720) (m 1600) (m 1490) (m 1430) (m 1360) (m 1260) (m 1260)
  | .psigmaDS => byAngle (m 990) (m 960) (m 790) (m 810) (m 1120) (m 1230) (m 550) (m 630) (m 630)
  | .psigmaK => byAngle (m 6260) (m 10320) (m 16340) (m 15630) (m 14220) (m 14190) (m 5700) (m 9910) (m 9910)
  | .psigmaSF => byAngle (m 1790) (m 1140) (m 1140) (m 920) (m 1420) (m 1560) (m 850) (m 720) (m 720)
  | .psigmaXPR => byAngle (m 7600) (m 8900) (m 8500) (m 8400) (m 9200) (m 9800) (m 10800) (m 12200) (m 13000)
  | .psigmaZSA => byAngle (m 620) (m 810) (m 570) (m 860) (m 1050) (m 1230) (m 540) (m 670) (m 670)
  | .psigmaZSD => byAngle (m 960) (m 950) (m 490) (m 790) (m 970) (m 1170) (m 620) (m 760) (m 760)
  | .pzeta => byAngle (m 3000) (m 3000) (m 3000) (m 3000) (m 3000) (m 3000) (m 3000) (m 3000) (m 3000)

/-- `/repo/OpenNTN/models/Sub_Urban_NLOS_Ka_band_DL.json` -/
def fileSubUrbanNLOSKabandDL : ParamFile
  | .pCL => byAngle (m 29500) (m 24600) (m 21900) (m 20000) (m 18700) (m 17800) (m 17200) (m 16900) (m 16800)
  | .pCPhiNLoS => scalar (m 779)
  | .pCThetaNLoS => scalar (m 697)
  | .pLoSp => byAngle (m 782) (m 869) (m 919) (m 929) (m 935) (m 940) (m 949) (m 952) (m 998)
  | .pcASA => byAngle (m 15000) (m 15000) (m 15000) (m 15000) (m 15000) (m 15000) (m 15000) (m 15000) (m 15000)
  | .pcASD => byAngle (m 0) (m 0) (m 0) (m 0) (m 0) (m 0) (m 0) (m 0) (m 0)
  | .pcDS => byAngle (m 1600) (m 1600) (m 1600) (m 1600) (m 1600) (m 1600) (m 1600) (m 1600) (m 1600)
  | .pcZSA => byAngle (m 7000) (m 7000) (m 7000) (m 7000) (m 7000) (m 7000) (m 7000) (m 7000) (m 7000)
  | .pcorrASAvsDS => byAngle (m 600) (m 600) (m 600) (m 600) (m 600) (m 600) (m 600) (m 600) (m 600)
  | .pcorrASAvsK => byAngle (m 0) (m 0) (m 0) (m 0) (m 0) (m 0) (m 0) (m 0) (m 0)
  | .pcorrASAvsSF => byAngle (m 0) (m 0) (m 0) (m 0) (m 0) (m 0) (m 0) (m 0) (m 0)
  | .pcorrASDvsASA => byAngle (m 0) (m 0) (m 0) (m 0) (m 0) (m 0) (m 0) (m 0) (m 0)
  | .pcorrASDvsDS => byAngle (m 0) (m 0) (m 0) (m 0) (m 0) (m 0) (m 0) (m 0) (m 0)
  | .pcorrASDvsK => byAngle (m 0) (m 0) (m 0) (m 0) (m 0) (m 0) (m 0) (m 0) (m 0)
  | .pcorrASDvsSF => byAngle (m 0) (m 0) (m 0) (m 0) (m 0) (m 0) (m 0) (m 0) (m 0)
  | .pcorrDSvsK => byAngle (m 0) (m 0) (m 0) (m 0) (m 0) (m 0) (m 0) (m 0) (m 0)
  | .pcorrDSvsSF => byAngle (m (-400)) (m (-400)) (m (-400)) (m (-400)) (m (-400)) (m (-400)) (m (-400)) (m (-400)) (m (-400))
  | .pcorrDistASA => byAngle (m 50000) (m 50000) (m 50000) (m 50000) (m 50000) (m 50000) (m 50000) (m 50000) (m 50000)
  | .pcorrDistASD => byAngle (m 50000) (m 50000) (m 50000) (m 50000) (m 50000) (m 50000) (m 50000) (m 50000) (m 50000)
  | .pcorrDistDS => byAngle (m 40000) (m 40000) (m 40000) (m 40000) (m 40000) (m 40000) (m 40000) (m 40000) (m 40000)
  | .pcorrDistK => byAngle (m 1000) (m 1000) (m 1000) (m 1000) (m 1000) (m 1000) (m 1000) (m 1000) (m 1000)
  | .pcorrDistSF => byAngle (m 50000) (m 50000) (m 50000) (m 50000) (m 50000) (m 50000) (m 50000) (m 50000) (m 50000)
  | .pcorrDistZSA => byAngle (m 50000) (m 50000) (m 50000) (m 50000) (m 50000) (m 50000) (m 50000) (m 50000) (m 50000)
  | .pcorrDistZSD => byAngle (m 50000) (m 50000) (m 50000) (m 50000) (m 50000) (m 50000) (m 50000) (m 50000) (m 50000)
  | .pcorrSFvsK => byAngle (m 0) (m 0) (m 0) (m 0) (m 0) (m 0) (m 0) (m 0) (m 0)
  | .pcorrZSAvsASA => byAngle (m 0) (m 0) (m 0) (m 0) (m 0) (m 0) (m 0) (m 0) (m 0)
  | .pcorrZSAvsASD => byAngle (m 0) (m 0) (m 0) (m 0) (m 0) (m 0) (m 0) (m 0) (m 0)
  | .pcorrZSAvsDS => byAngle (m 0) (m 0) (m 0) (m 0) (m 0) (m 0) (m 0) (m 0) (m 0)
  | .pcorrZSAvsK => byAngle (m 0) (m 0) (m 0) (m 0) (m 0) (m 0) (m 0) (m 0) (m 0)
  | .pcorrZSAvsSF => byAngle (m (-400)) (m (-400)) (m (-400)) (m (-400)) (m (-400)) (m (-400)) (m (-400)) (m (-400)) (m (-400))
  | .pcorrZSDvsASA => byAngle (m 0) (m 0) (m 0) (m 0) (m 0) (m 0) (m 0) (m 0) (m 0)
  | .pcorrZSDvsASD => byAngle (m 0) (m 0) (m 0) (m 0) (m 0) (m 0) (m 0) (m 0) (m 0)
  | .pcorrZSDvsDS => byAngle (m 0) (m 0) (m 0) (m 0) (m 0) (m 0) (m 0) (m 0) (m 0)
  | .pcorrZSDvsK => byAngle (m 0) (m 0) (m 0) (m 0) (m 0) (m 0) (m 0) (m 0) (m 0)
  | .pcorrZSDvsSF => byAngle (m 0) (m 0) (m 0) (m 0) (m 0) (m 0) (m 0) (m 0) (m 0)
  | .pcorrZSDvsZSA => byAngle (m 0) (m 0) (m 0) (m 0) (m 0) (m 0) (m 0) (m 0) (m 0)
  | .pmuASA => byAngle (m 1490) (m 1240) (m 1060) (m 910) (m 980) (m 490) (m 730) (m (-40)) (m (-40))
  | .pmuASD => byAngle ninf ninf ninf ninf ninf ninf ninf ninf ninf
  | .pmuDS => byAngle (m (-7430)) (m (-7630)) (m (-7860)) (m (-7960)) (m (-7980)) (m (-8450)) (m (-8210)) (m (-8690)) (m (-8690))
  | .pmuK => byAngle (m 0) (m 0) (m 0) (m 0) (m 0) (m 0) (m 0) (m 0) (m 0)
  | .pmuXPR => byAngle (m 22500) (m 19400) (m 15500) (m 13900) (m 11700) (m 9800) (m 10300) (m 15600) (m 15600)
  | .pmuZSA => byAngle (m 810) (m 1060) (m 1120) (m 1140) (m 1290) (m 1380) (m 1360) (m 1380) (m 1380)
  | .pmuZSD => byAngle ninf ninf ninf ninf ninf ninf ninf ninf ninf
  | .pnumClusters => byAngle (m 4000) (m 4000) (m 4000) (m 4000) (m 4000) (m 3000) (m 3000) (m 3000) (m 3000)
  | .prTau => byAngle (m 2300) (m 2300) (m 2300) (m 2300) (m 2300) (m 2300) (m 2300) (m 2300) (m 2300)
  | .psigmaASA => byAngle (m 400) (m 820) (m 710) (m 550) (m 580) (m 1370) (m 490) (m 1480) (m 1480)
  | .psigmaASD => byAngle (m 0) (m 0) (m 0) (m 0) (m 0) (m 0) (m 0) (m 0) (m 0)
  | .psigmaDS => byAngle (m 500) (m 610) (m 560) (m 580) (m 590) (m 470) (m 360) (m 290) (m 290)
  | .psigmaK => byAngle (m 0) (m 0) (m 0) (m 0) (m 0) (m 0) (m 0) (m 0) (m 0)
  | .psigmaSF => byAngle (m 10700) (m 10000) (m 11200) (m 11600) (m 11800) (m 10800) (m 10800) (m 10800) (m 10800)
  | .psigmaXPR => byAngle (m 5000) (m 8500) (m 10000) (m 10600) (m 10000) (m 9100) (m 9100) (m 9100) (m 9100)
  | .psigmaZSA => byAngle (m 360) (m 410) (m 400) (m 390) (m 350) (m 360) (m 290) (m 200) (m 200)
  | .psigmaZSD => byAngle (m 0) (m 0) (m 0) (m 0) (m 0) (m 0) (m 0) (m 0) (m 0)
  | .pzeta => byAngle (m 3000) (m 3000) (m 3000) (m 3000) (m 3000) (m 3000) (m 3000) (m 3000) (m 3000)

/-- `/repo/OpenNTN/models/Sub_Urban_NLOS_Ka_band_UL.json` -/
def fileSubUrbanNLOSKabandUL : ParamFile
  | .pCL => byAngle (m 29500) (m 24600) (m 21900) (m 20000) (m 18700) (m 17800) (m 17200) (m 16900) (m 16800)
  | .pCPhiNLoS => scalar (m 779)
  | .pCThetaNLoS => scalar (m 697)
  | .pLoSp => byAngle (m 782) (m 869) (m 919) (m 929) (m 935) (m 940) (m 949) (m 952) (m 998)
  | .pcASA => byAngle (m 15000) (m 15000) (m 15000) (m 15000) (m 15000) (m 15000) (m 15000) (m 15000) (m 15000)
  | .pcASD => byAngle (m 0) (m 0) (m 0) (m 0) (m 0) (m 0) (m 0) (m 0) (m 0)
  | .pcDS => byAngle (m 1600) (m 1600) (m 1600) (m 1600) (m 1600) (m 1600) (m 1600) (m 1600) (m 1600)
  | .pcZSA => byAngle (m 7000) (m 7000) (m 7000) (m 7000) (m 7000) (m 7000) (m 7000) (m 7000) (m 7000)
  | .pcorrASAvsDS => byAngle (m 600) (m 600) (m 600) (m 600) (m 600) (m 600) (m 600) (m 600) (m 600)
  | .pcorrASAvsK => byAngle (m 0) (m 0) (m 0) (m 0) (m 0) (m 0) (m 0) (m 0) (m 0)
  | .pcorrASAvsSF => byAngle (m 0) (m 0) (m 0) (m 0) (m 0) (m 0) (m 0) (m 0) (m 0)
  | .pcorrASDvsASA => byAngle (m 400) (m 400) (m 400) (m 400) (m 400) (m 400) (m 400) (m 400) (m 400)
  | .pcorrASDvsDS => byAngle (m 400) (m 400) (m 400) (m 400) (m 400) (m 400) (m 400) (m 400) (m 400)
  | .pcorrASDvsK => byAngle (m 0) (m 0) (m 0) (m 0) (m 0) (m 0) (m 0) (m 0) (m 0)
  | .pcorrASDvsSF => byAngle (m (-600)) (m (-600)) (m (-600)) (m (-600)) (m (-600)) (m (-600)) (m (-600)) (m (-600)) (m (-600))
  | .pcorrDSvsK => byAngle (m 0) (m 0) (m 0) (m 0) (m 0) (m 0) (m 0) (m 0) (m 0)
  | .pcorrDSvsSF => byAngle (m (-400)) (m (-400)) (m (-400)) (m (-400)) (m (-400)) (m (-400)) (m (-400)) (m (-400)) (m (-400))
  | .pcorrDistASA => byAngle (m 50000) (m 50000) (m 50000) (m 50000) (m 50000) (m 50000) (m 50000) (m 50000) (m 50000)
  | .pcorrDistASD => byAngle (m 50000) (m 50000) (m 50000) (m 50000) (m 50000) (m 50000) (m 50000) (m 50000) (m 50000)
  | .pcorrDistDS => byAngle (m 40000) (m 40000) (m 40000) (m 40000) (m 40000) (m 40000) (m 40000) (m 40000) (m 40000)
  | .pcorrDistK => byAngle (m 1000) (m 1000) (m 1000) (m 1000) (m 1000) (m 1000) (m 1000) (m 1000) (m 1000)
  | .pcorrDistSF => byAngle (m 50000) (m 50000) (m 50000) (m 50000) (m 50000) (m 50000) (m 50000) (m 50000) (m 50000)
  | .pcorrDistZSA => byAngle (m 50000) (m 50000) (m 50000) (m 50000) (m 50000) (m 50000) (m 50000) (m 50000) (m 50000)
  | .pcorrDistZSD => byAngle (m 50000) (m 50000) (m 50000) (m 50000) (m 50000) (m 50000) (m 50000) (m 50000) (m 50000)
  | .pcorrSFvsK => byAngle (m 0) (m 0) (m 0) (m 0) (m 0) (m 0) (m 0) (m 0) (m 0)
  | .pcorrZSAvsASA => byAngle (m 0) (m 0) (m 0) (m 0) (m 0) (m 0) (m 0) (m 0) (m 0)
  | .pcorrZSAvsASD => byAngle (m (-100)) (m (-100)) (m (-100)) (m (-100)) (m (-100)) (m (-100)) (m (-100)) (m (-100)) (m (-100))
  | .pcorrZSAvsDS => byAngle (m 0) (m 0) (m 0) (m 0) (m 0) (m 0) (m 0) (m 0) (m 0)
  | .pcorrZSAvsK => byAngle (m 0) (m 0) (m 0) (m 0) (m 0) (m 0) (m 0) (m 0) (m 0)
  | .pcorrZSAvsSF => byAngle (m (-400)) (m (-400)) (m (-400)) (m (-400)) (m (-400)) (m (-400)) (m (-400)) (m (-400)) (m (-400))
  | .pcorrZSDvsASA => byAngle (m 0) (m 0) (m 0) (m 0) (m 0) (m 0) (m 0) (m 0) (m 0)
  | .pcorrZSDvsASD => byAngle (m 500) (m 500) (m 500) (m 500) (m 500) (m 500) (m 500) (m 500) (m 500)
  | .pcorrZSDvsDS => byAngle (m (-500)) (m (-500)) (m (-500)) (m (-500)) (m (-500)) (m (-500)) (m (-500)) (m (-500)) (m (-500))
  | .pcorrZSDvsK => byAngle (m 0) (m 0) (m 0) (m 0) (m 0) (m 0) (m 0) (m 0) (m 0)
  | .pcorrZSDvsSF => byAngle (m 0) (m 0) (m 0) (m 0) (m 0) (m 0) (m 0) (m 0) (m 0)
  | .pcorrZSDvsZSA => byAngle (m 0) (m 0) (m 0) (m 0) (m 0) (m 0) (m 0) (m 0) (m 0)
  | .pmuASA => byAngle (m 1490) (m 1240) (m 1060) (m 910) (m 980) (m 490) (m 730) (m (-40)) (m (-40))
  | .pmuASD => byAngle (m (-2890)) (m (-2760)) (m (-2640)) (m (-2410)) (m (-2420)) (m (-2530)) (m (-2350)) (m (-2310)) (m (-2310))
  | .pmuDS => byAngle (m (-7430)) (m (-7630)) (m (-7860)) (m (-7960)) (m (-7980)) (m (-8450)) (m (-8210)) (m (-8690)) (m (-8690))
  | .pmuK => byAngle (m 0) (m 0) (m 0) (m 0) (m 0) (m 0) (m 0) (m 0) (m 0)
  | .pmuXPR => byAngle (m 22500) (m 19400) (m 15500) (m 13900) (m 11700) (m 9800) (m 10300) (m 15600) (m 15600)
  | .pmuZSA => byAngle (m 810) (m 1060) (m 1120) (m 1140) (m 1290) (m 1380) (m 1360) (m 1380) (m 1380)
  | .pmuZSD => byAngle (m (-3090)) (m (-2930)) (m (-2910)) (m (-2780)) (m (-2700)) (m (-3030)) (m (-2900)) (m (-3300)) (m (-3200))
  | .pnumClusters => byAngle (m 4000) (m 4000) (m 4000) (m 4000) (m 4000) (m 3000) (m 3000) (m 3000) (m 3000)
  | .prTau => byAngle (m 2300) (m 2300) (m 2300) (m 2300) (m 2300) (m 2300) (m 2300) (m 2300) (m 2300)
  | .psigmaASA => byAngle (m 400) (m 820) (m 710) (m 550) (m 580) (m 1370) (m 490) (m 1480) (m 1480)
  | .psigmaASD => byAngle (m 410) (m 410) (m 410) (m 520) (m 700) (m 500) (m 580) (m 730) (m 730)
  | .psigmaDS => byAngle (m 500) (m 610) (m 560) (m 580) (m 590) (m 470) (m 360) (m 290) (m 290)
  | .psigmaK => byAngle (m 0) (m 0) (m 0) (m 0) (m 0) (m 0) (m 0) (m 0) (m 0)
  | .psigmaSF => byAngle (m 10700) (m 10000) (m 11200) (m 11600) (m 11800) (m 10800) (m 10800) (m 10800) (m 10800)
  | .psigmaXPR => byAngle (m 5000) (m 8500) (m 10000) (m 10600) (m 10000) (m 9100) (m 9100) (m 9100) (m 9100)
  | .psigmaZSA => byAngle (m 360) (m 410) (m 400) (m 390) (m 350) (m 360) (m 290) (m 200) (m 200)
  | .psigmaZSD => byAngle (m 320) (m 470) (m 460) (m 540) (m 450) (m 360) (m 420) (m 300) (m 300)
  | .pzeta => byAngle (m 3000) (m 3000) (m 3000) (m 3000) (m 3000) (m 3000) (m 3000) (m 3000) (m 3000)

/-- `/repo/OpenNTN/models/Sub_Urban_NLOS_S_band_DL.json` -/
def fileSubUrbanNLOSSbandDL : ParamFile
  | .pCL => byAngle (m 19520) (m 18170) (m 18420) (m 18280) (m 18630) (m 17680) (m 16500) (m 16300) (m 16300)
  | .pCPhiNLoS => scalar (m 779)
  | .pCThetaNLoS => scalar (m 697)
  | .pLoSp => byAngle (m 782) (m 869) (m 919) (m 929) (m 935) (m 940) (m 949) (m 952) (m 998)
  | .pcASA => byAngle (m 15000) (m 15000) (m 15000) (m 15000) (m 15000) (m 15000) (m 15000) (m 15000) (m 15000)
  | .pcASD => byAngle (m 0) (m 0) (m 0) (m 0) (m 0) (m 0) (m 0) (m 0) (m 0)
  | .pcDS => byAngle (m 1600) (m 1600) (m 1600) (m 1600) (m 1600) (m 1600) (m 1600) (m 1600) (m 1600)
  | .pcZSA => byAngle (m 7000) (m 7000) (m 7000) (m 7000) (m 7000) (m 7000) (m 7000) (m 7000) (m 7000)
  | .pcorrASAvsDS => byAngle (m 600) (m 600) (m 600) (m 600) (m 600) (m 600) (m 600) (m 600) (m 600)
  | .pcorrASAvsK => byAngle (m 0) (m 0) (m 0) (m 0) (m 0) (m 0) (m 0) (m 0) (m 0)
  | .pcorrASAvsSF => byAngle (m 0) (m 0) (m 0) (m 0) (m 0) (m 0) (m 0) (m 0) (m 0)
  | .pcorrASDvsASA => byAngle (m 0) (m 0) (m 0) (m 0) (m 0) (m 0) (m 0) (m 0) (m 0)
  | .pcorrASDvsDS => byAngle (m 0) (m 0) (m 0) (m 0) (m 0) (m 0) (m 0) (m 0) (m 0)
  | .pcorrASDvsK => byAngle (m 0) (m 0) (m 0) (m 0) (m 0) (m 0) (m 0) (m 0) (m 0)
  | .pcorrASDvsSF => byAngle (m 0) (m 0) (m 0) (m 0) (m 0) (m 0) (m 0) (m 0) (m 0)
  | .pcorrDSvsK => byAngle (m 0) (m 0) (m 0) (m 0) (m 0) (m 0) (m 0) (m 0) (m 0)
  | .pcorrDSvsSF => byAngle (m (-400)) (m (-400)) (m (-400)) (m (-400)) (m (-400)) (m (-400)) (m (-400)) (m (-400)) (m (-400))
  | .pcorrDistASA => byAngle (m 50000) (m 50000) (m 50000) (m 50000) (m 50000) (m 50000) (m 50000) (m 50000) (m 50000)
  | .pcorrDistASD => byAngle (m 50000) (m 50000) (m 50000) (m 50000) (m 50000) (m 50000) (m 50000) (m 50000) (m 50000)
  | .pcorrDistDS => byAngle (m 40000) (m 40000) (m 40000) (m 40000) (m 40000) (m 40000) (m 40000) (m 40000) (m 40000)
  | .pcorrDistK => byAngle (m 1000) (m 1000) (m 1000) (m 1000) (m 1000) (m 1000) (m 1000) (m 1000) (m 1000)
  | .pcorrDistSF => byAngle (m 50000) (m 50000) (m 50000) (m 50000) (m 50000) (m 50000) (m 50000) (m 50000) (m 50000)
  | .pcorrDistZSA => byAngle (m 50000) (m 50000) (m 50000) (m 50000) (m 50000) (m 50000) (m 50000) (m 50000) (m 50000)
  | .pcorrDistZSD => byAngle (m 50000) (m 50000) (m 50000) (m 50000) (m 50000) (m 50000) (m 50000) (m 50000) (m 50000)
  | .pcorrSFvsK => byAngle (m 0) (m 0) (m 0) (m 0) (m 0) (m 0) (m 0) (m 0) (m 0)
  | .pcorrZSAvsASA => byAngle (m 0) (m 0) (m 0) (m 0) (m 0) (m 0) (m 0) (m 0) (m 0)
  | .pcorrZSAvsASD => byAngle (m 0) (m 0) (m 0) (m 0) (m 0) (m 0) (m 0) (m 0) (m 0)
  | .pcorrZSAvsDS => byAngle (m 0) (m 0) (m 0) (m 0) (m 0) (m 0) (m 0) (m 0) (m 0)
  | .pcorrZSAvsK => byAngle (m 0) (m 0) (m 0) (m 0) (m 0) (m 0) (m 0) (m 0) (m 0)
  | .pcorrZSAvsSF => byAngle (m (-400)) (m (-400)) (m (-400)) (m (-400)) (m (-400)) (m (-400)) (m (-400)) (m (-400)) (m (-400))
  | .pcorrZSDvsASA => byAngle (m 0) (m 0) (m 0) (m 0) (m 0) (m 0) (m 0) (m 0) (m 0)
  | .pcorrZSDvsASD => byAngle (m 0) (m 0) (m 0) (m 0) (m 0) (m 0) (m 0) (m 0) (m 0)
  | .pcorrZSDvsDS => byAngle (m 0) (m 0) (m 0) (m 0) (m 0) (m 0) (m 0) (m 0) (m 0)
  | .pcorrZSDvsK => byAngle (m 0) (m 0) (m 0) (m 0) (m 0) (m 0) (m 0) (m 0) (m 0)
  | .pcorrZSDvsSF => byAngle (m 0) (m 0) (m 0) (m 0) (m 0) (m 0) (m 0) (m 0) (m 0)
  | .pcorrZSDvsZSA => byAngle (m 0) (m 0) (m 0) (m 0) (m 0) (m 0) (m 0) (m 0) (m 0)
  | .pmuASA => byAngle (m 910) (m 700) (m 380) (m 300) (m 280) (m 230) (m 100) (m 40) (m 40)
  | .pmuASD => byAngle ninf ninf ninf ninf ninf ninf ninf ninf ninf
  | .pmuDS => byAngle (m (-7910)) (m (-8390)) (m (-8690)) (m (-8590)) (m (-8640)) (m (-8740)) (m (-8980)) (m (-9280)) (m (-9280))
  | .pmuK => byAngle (m 0) (m 0) (m 0) (m 0) (m 0) (m 0) (m 0) (m 0) (m 0)
  | .pmuXPR => byAngle (m 20600) (m 16700) (m 13200) (m 11300) (m 9600) (m 7500) (m 9100) (m 11700) (m 11700)
  | .pmuZSA => byAngle (m (-1900)) (m (-1700)) (m (-1750)) (m (-1800)) (m (-1800)) (m (-1850)) (m (-1450)) (m (-1190)) (m (-1190))
  | .pmuZSD => byAngle ninf ninf ninf ninf ninf ninf ninf ninf ninf
  | .pnumClusters => byAngle (m 4000) (m 4000) (m 4000) (m 4000) (m 4000) (m 3000) (m 3000) (m 3000) (m 3000)
  | .prTau => byAngle (m 2280) (m 2330) (m 2430) (m 2260) (m 2710) (m 2100) (m 2190) (m 2060) (m 2060)
  | .psigmaASA => byAngle (m 1700) (m 1330) (m 1520) (m 1460) (m 1440) (m 1440) (m 1240) (m 1040) (m 1040)
  | .psigmaASD => byAngle (m 0) (m 0) (m 0) (m 0) (m 0) (m 0) (m 0) (m 0) (m 0)
  | .psigmaDS => byAngle (m 1420) (m 1460) (m 1460) (m 1210) (m 1180) (m 1130) (m 1370) (m 1500) (m 1500)
  | .psigmaK => byAngle (m 0) (m 0) (m 0) (m 0) (m 0) (m 0) (m 0) (m 0) (m 0)
  | .psigmaSF => byAngle (m 8930) (m 9080) (m 8780) (m 10250) (m 10560) (m 10740) (m 10170) (m 11520) (m 11520)
  | .psigmaXPR => byAngle (m 8500) (m 12000) (m 12800) (m 13800) (m 12500) (m 11200) (m 10100) (m 13100) (m 13100)
  | .psigmaZSA => byAngle (m 1630) (m 1240) (m 1540) (m 1250) (m 1210) (m 1200) (m 1380) (m 1580) (m 1580)
  | .psigmaZSD => byAngle (m 0) (m 0) (m 0) (m 0) (m 0) (m 0) (m 0) (m 0) (m 0)
  | .pzeta => byAngle (m 3000) (m 3000) (m 3000) (m 3000) (m 3000) (m 3000) (m 3000) (m 3000) (m 3000)

/-- `/repo/OpenNTN/models/Sub_Urban_NLOS_S_band_UL.json` -/
def fileSubUrbanNLOSSbandUL : ParamFile
  | .pCL => byAngle (m 19520) (m 18170) (m 18420) (m 18280) (m 18630) (m 17680) (m 16500) (m 16300) (m 16300)
  | .pCPhiNLoS => scalar (m 779)
  | .pCThetaNLoS => scalar (m 697)
  | .pLoSp => byAngle (m 782) (m 869) (m 919) (m 929) (m 935) (m 940) (m 949) (m 952) (m 998)
  | .pcASA => byAngle (m 15000) (m 15000) (m 15000) (m 15000) (m 15000) (m 15000) (m 15000) (m 15000) (m 15000)
  | .pcASD => byAngle (m 0) (m 0) (m 0) (m 0) (m 0) (m 0) (m 0) (m 0) (m 0)
  | .pcDS => byAngle (m 1600) (m 1600) (m 1600) (m 1600) (m 1600) (m 1600) (m 1600) (m 1600) (m 1600)
  | .pcZSA => byAngle (m 7000) (m 7000) (m 7000) (m 7000) (m 7000) (m 7000) (m 7000) (m 7000) (m 7000)
  | .pcorrASAvsDS => byAngle (m 600) (m 600) (m 600) (m 600) (m 600) (m 600) (m 600) (m 600) (m 600)
  | .pcorrASAvsK => byAngle (m 0) (m 0) (m 0) (m 0) (m 0) (m 0) (m 0) (m 0) (m 0)
  | .pcorrASAvsSF => byAngle (m 0) (m 0) (m 0) (m 0) (m 0) (m 0) (m 0) (m 0) (m 0)
  | .pcorrASDvsASA => byAngle (m 400) (m 400) (m 400) (m 400) (m 400) (m 400) (m 400) (m 400) (m 400)
  | .pcorrASDvsDS => byAngle (m 400) (m 400) (m 400) (m 400) (m 400) (m 400) (m 400) (m 400) (m 400)
  | .pcorrASDvsK => byAngle (m 0) (m 0) (m 0) (m 0) (m 0) (m 0) (m 0) (m 0) (m 0)
  | .pcorrASDvsSF => byAngle (m (-600)) (m (-600)) (m (-600)) (m (-600)) (m (-600)) (m (-600)) (m (-600)) (m (-600)) (m (-600))
  | .pcorrDSvsK => byAngle (m 0) (m 0) (m 0) (m 0) (m 0) (m 0) (m 0) (m 0) (m 0)
  | .pcorrDSvsSF => byAngle (m (-400)) (m (-400)) (m (-400)) (m (-400)) (m (-400)) (m (-400)) (m (-400)) (m (-400)) (m (-400))
  | .pcorrDistASA => byAngle (m 50000) (m 50000) (m 50000) (m 50000) (m 50000) (m 50000) (m 50000) (m 50000) (m 50000)
  | .pcorrDistASD => byAngle (m 50000) (m 50000) (m 50000) (m 50000) (m 50000) (m 50000) (m 50000) (m 50000) (m 50000)
  | .pcorrDistDS => byAngle (m 40000) (m 40000) (m 40000) (m 40000) (m 40000) (m 40000) (m 40000) (m 40000) (m 40000)
  | .pcorrDistK => byAngle (m 1000) (m 1000) (m 1000) (m 1000) (m 1000) (m 1000) (m 1000) (m 1000) (m 1000)
  | .pcorrDistSF => byAngle (m 50000) (m 50000) (m 50000) (m 50000) (m 50000) (m 50000) (m 50000) (m 50000) (m 50000)
  | .pcorrDistZSA => byAngle (m 50000) (m 50000) (m 50000) (m 50000) (m 50000) (m 50000) (m 50000) (m 50000) (m 50000)
  | .pcorrDistZSD => byAngle (m 50000) (m 50000) (m 50000) (m 50000) (m 50000) (m 50000) (m 50000) (m 50000) (m 50000)
  | .pcorrSFvsK => byAngle (m 0) (m 0) (m 0) (m 0) (m 0) (m 0) (m 0) (m 0) (m 0)
  | .pcorrZSAvsASA => byAngle (m 0) (m 0) (m 0) (m 0) (m 0) (m 0) (m 0) (m 0) (m 0)
  | .pcorrZSAvsASD => byAngle (m (-100)) (m (-100)) (m (-100)) (m (-100)) (m (-100)) (m (-100)) (m (-100)) (m (-100)) (m (-100))
  | .pcorrZSAvsDS => byAngle (m 0) (m 0) (m 0) (m 0) (m 0) (m 0) (m 0) (m 0) (m 0)
  | .pcorrZSAvsK => byAngle (m 0) (m 0) (m 0) (m 0) (m 0) (m 0) (m 0) (m 0) (m 0)
  | .pcorrZSAvsSF => byAngle (m (-400)) (m (-400)) (m (-400)) (m (-400)) (m (-400)) (m (-400)) (m (-400)) (m (-400)) (m (-400))
  | .pcorrZSDvsASA => byAngle (m 0) (m 0) (m 0) (m 0) (m 0) (m 0) (m 0) (m 0) (m 0)
  | .pcorrZSDvsASD => byAngle (m 500) (m 500) (m 500) (m 500) (m 500) (m 500) (m 500) (m 500) (m 500)
  | .pcorrZSDvsDS => byAngle (m (-500)) (m (-500)) (m (-500)) (m (-500)) (m (-500)) (m (-500)) (m (-500)) (m (-500)) (m (-500))
  | .pcorrZSDvsK => byAngle (m 0) (m 0) (m 0) (m 0) (m 0) (m 0) (m 0) (m 0) (m 0)
  | .pcorrZSDvsSF => byAngle (m 0) (m 0) (m 0) (m 0) (m 0) (m 0) (m 0) (m 0) (m 0)
  | .pcorrZSDvsZSA => byAngle (m 0) (m 0) (m 0) (m 0) (m 0) (m 0) (m 0) (m 0) (m 0)
  | .pmuASA => byAngle (m 910) (m 700) (m 380) (m 300) (m 280) (m 230) (m 100) (m 40) (m 40)
  | .pmuASD => byAngle (m (-3540)) (m (-3630)) (m (-3660)) (m (-3660)) (m (-3660)) (m (-3570)) (m (-3180)) (m (-2710)) (m (-2710))
  | .pmuDS => byAngle (m (-7910)) (m (-8390)) (m (-8690)) (m (-8590)) (m (-8640)) (m (-8740)) (m (-8980)) (m (-9280)) (m (-9280))
  | .pmuK => byAngle (m 0) (m 0) (m 0) (m 0) (m 0) (m 0) (m 0) (m 0) (m 0)
  | .pmuXPR => byAngle (m 20600) (m 16700) (m 13200) (m 11300) (m 9600) (m 7500) (m 9100) (m 11700) (m 11700)
  | .pmuZSA => byAngle (m (-1900)) (m (-1700)) (m (-1750)) (m (-1800)) (m (-1800)) (m (-1850)) (m (-1450)) (m (-1190)) (m (-1190))
  | .pmuZSD => byAngle (m (-2010)) (m (-1670)) (m (-1750)) (m (-1490)) (m (-1530)) (m (-1570)) (m (-1480)) (m (-1620)) (m (-1620))
  | .pnumClusters => byAngle (m 4000) (m 4000) (m 4000) (m 4000) (m 4000) (m 3000) (m 3000) (m 3000) (m 3000)
  | .prTau => byAngle (m 2280) (m 2330) (m 2430) (m 2260) (m 2710) (m 2100) (m 2190) (m 2060) (m 2060)
  | .psigmaASA => byAngle (m 1700) (m 1330) (m 1520) (m 1460) (m 1440) (m 1440) (m 1240) (m 1040) (m 1040)
  | .psigmaASD => byAngle (m 1800) (m 1430) (m 1680) (m 1480) (m 1550) (m 1380) (m 1620) (m 1630) (m 1630)
  | .psigmaDS => byAngle (m 1420) (m 1460) (m 1460) (m 1210) (m 1180) (m 1130) (m 1370) (m 1500) (m 1500)
  | .psigmaK => byAngle (m 0) (m 0) (m 0) (m 0) (m 0) (m 0) (m 0) (m 0) (m 0)
  | .psigmaSF => byAngle (m 8930) (m 9080) (m 8780) (m 10250) (m 10560) (m 10740) (m 10170) (m 11520) (m 11520)
  | .psigmaXPR => byAngle (m 8500) (m 12000) (m 12800) (m 13800) (m 12500) (m 11200) (m 10100) (m 13100) (m 13100)
  | .psigmaZSA => byAngle (m 1630) (m 1240) (m 1540) (m 1250) (m 1210) (m 1200) (m 1380) (m 1580) (m 1580)
  | .psigmaZSD => byAngle (m 1790) (m 1310) (m 1420) (m 1280) (m 1400) (m 1240) (m 980) (m 880) (m 880)
  | .pzeta => byAngle (m 3000) (m 3000) (m 3000) (m 3000) (m 3000) (m 3000) (m 3000) (m 3000) (m 3000)

/-- `/repo/OpenNTN/models/Urban_LOS_Ka_band_DL.json` -/
def fileUrbanLOSKabandDL : ParamFile
  | .pCL => absent
  | .pCPhiNLoS => scalar (m 680)
  | .pCThetaNLoS => scalar (m 594)
  | .pLoSp => byAngle (m 246) (m 386) (m 493) (m 613) (m 726) (m 805) (m 919) (m 968) (m 992)
  | .pcASA => byAngle (m 11780) (m 11600) (m 13050) (m 14560) (m 15350) (m 16970) (m 17960) (m 20680) (m 25080)
  | .pcASD => byAngle (m 90) (m 90) (m 110) (m 150) (m 180) (m 270) (m 420) (m 860) (m 2550)
  | .pcDS => byAngle (m 1600) (m 1600) (m 1600) (m 1600) (m 1600) (m 1600) (m 1600) (m 1600) (m 1600)
  | .pcZSA => byAngle (m 1140) (m 2780) (m 3870) (m 4940) (m 5410) (m 6310) (m 6660) (m 7310) (m 9230)
  | .pcorrASAvsDS => byAngle (m 800) (m 800) (m 800) (m 800) (m 800) (m 800) (m 800) (m 800) (m 800)
  | .pcorrASAvsK => byAngle (m (-200)) (m (-200)) (m (-200)) (m (-200)) (m (-200)) (m (-200)) (m (-200)) (m (-200)) (m (-200))
  | .pcorrASAvsSF => byAngle (m (-500)) (m (-500)) (m (-500)) (m (-500)) (m (-500)) (m (-500)) (m (-500)) (m (-500)) (m (-500))
  | .pcorrASDvsASA => byAngle (m 0) (m 0) (m 0) (m 0) (m 0) (m 0) (m 0) (m 0) (m 0)
  | .pcorrASDvsDS => byAngle (m 0) (m 0) (m 0) (m 0) (m 0) (m 0) (m 0) (m 0) (m 0)
  | .pcorrASDvsK => byAngle (m 0) (m 0) (m 0) (m 0) (m 0) (m 0) (m 0) (m 0) (m 0)
  | .pcorrASDvsSF => byAngle (m 0) (m 0) (m 0) (m 0) (m 0) (m 0) (m 0) (m 0) (m 0)
  | .pcorrDSvsK => byAngle (m (-400)) (m (-400)) (m (-400)) (m (-400)) (m (-400)) (m (-400)) (m (-400)) (m (-400)) (m (-400))
  | .pcorrDSvsSF => byAngle (m (-400)) (m (-400)) (m (-400)) (m (-400)) (m (-400)) (m (-400)) (m (-400)) (m (-400)) (m (-400))
  | .pcorrDistASA => byAngle (m 15000) (m 15000) (m 15000) (m 15000) (m 15000) (m 15000) (m 15000) (m 15000) (m 15000)
  | .pcorrDistASD => byAngle (m 18000) (m 18000) (m 18000) (m 18000) (m 18000) (m 18000) (m 18000) (m 18000) (m 18000)
  | .pcorrDistDS => byAngle (m 30000) (m 30000) (m 30000) (m 30000) (m 30000) (m 30000) (m 30000) (m 30000) (m 30000)
  | .pcorrDistK => byAngle (m 12000) (m 12000) (m 12000) (m 12000) (m 12000) (m 12000) (m 12000) (m 12000) (m 12000)
  | .pcorrDistSF => byAngle (m 37000) (m 37000) (m 37000) (m 37000) (m 37000) (m 37000) (m 37000) (m 37000) (m 37000)
  | .pcorrDistZSA => byAngle (m 15000) (m 15000) (m 15000) (m 15000) (m 15000) (m 15000) (m 15000) (m 15000) (m 15000)
  | .pcorrDistZSD => byAngle (m 15000) (m 15000) (m 15000) (m 15000) (m 15000) (m 15000) (m 15000) (m 15000) (m 15000)
  | .pcorrSFvsK => byAngle (m 0) (m 0) (m 0) (m 0) (m 0) (m 0) (m 0) (m 0) (m 0)
  | .pcorrZSAvsASA => byAngle (m 400) (m 400) (m 400) (m 400) (m 400) (m 400) (m 400) (m 400) (m 400)
  | .pcorrZSAvsASD => byAngle (m 0) (m 0) (m 0) (m 0) (m 0) (m 0) (m 0) (m 0) (m 0)
  | .pcorrZSAvsDS => byAngle (m 0) (m 0) (m 0) (m 0) (m 0) (m 0) (m 0) (m 0) (m 0)
  | .pcorrZSAvsK => byAngle (m 0) (m 0) (m 0) (m 0) (m 0) (m 0) (m 0) (m 0) (m 0)
  | .pcorrZSAvsSF => byAngle (m (-800)) (m (-800)) (m (-800)) (m (-800)) (m (-800)) (m (-800)) (m (-800)) (m (-800)) (m (-800))
  | .pcorrZSDvsASA => byAngle (m 0) (m 0) (m 0) (m 0) (m 0) (m 0) (m 0) (m 0) (m 0)
  | .pcorrZSDvsASD => byAngle (m 0) (m 0) (m 0) (m 0) (m 0) (m 0) (m 0) (m 0) (m 0)
  | .pcorrZSDvsDS => byAngle (m 0) (m 0) (m 0) (m 0) (m 0) (m 0) (m 0) (m 0) (m 0)
  | .pcorrZSDvsK => byAngle (m 0) (m 0) (m 0) (m 0) (m 0) (m 0) (m 0) (m 0) (m 0)
  | .pcorrZSDvsSF => byAngle (m 0) (m 0) (m 0) (m 0) (m 0) (m 0) (m 0) (m 0) (m 0)
  | .pcorrZSDvsZSA => byAngle (m 0) (m 0) (m 0) (m 0) (m 0) (m 0) (m 0) (m 0) (m 0)
  | .pmuASA => byAngle (m (-400)) (m (-150)) (m (-180)) (m (-310)) (m (-580)) (m (-900)) (m (-1160)) (m (-1480)) (m (-1140))
  | .pmuASD => byAngle ninf ninf ninf ninf ninf ninf ninf ninf ninf
  | .pmuDS => byAngle (m (-8520)) (m (-8590)) (m (-8510)) (m (-8490)) (m (-8480)) (m (-8440)) (m (-8400)) (m (-8370)) (m (-8350))
  | .pmuK => byAngle (m 40180) (m 23620) (m 12480) (m 8560) (m 7420) (m 5970) (m 4880) (m 4220) (m 3810)
  | .pmuXPR => byAngle (m 8000) (m 8000) (m 8000) (m 8000) (m 8000) (m 8000) (m 8000) (m 8000) (m 8000)
  | .pmuZSA => byAngle (m (-670)) (m (-340)) (m 70) (m (-80)) (m (-210)) (m (-250)) (m (-610)) (m (-790)) (m (-580))
  | .pmuZSD => byAngle ninf ninf ninf ninf ninf ninf ninf ninf ninf
  | .pnumClusters => byAngle (m 4000) (m 3000) (m 3000) (m 3000) (m 3000) (m 3000) (m 3000) (m 3000) (m 3000)
  | .prTau => byAngle (m 2500) (m 2500) (m 2500) (m 2500) (m 2500) (m 2500) (m 2500) (m 2500) (m 2500)
  | .psigmaASA => byAngle (m 770) (m 970) (m 1580) (m 1690) (m 2130) (m 2510) (m 2470) (m 2610) (m 1700)
  | .psigmaASD => byAngle (m 0) (m 0) (m 0) (m 0) (m 0) (m 0) (m 0) (m 0) (m 0)
  | .psigmaDS => byAngle (m 920) (m 790) (m 650) (m 480) (m 460) (m 340) (m 270) (m 190) (m 140)
  | .psigmaK => byAngle (m 16990) (m 18960) (m 14230) (m 11060) (m 11210) (m 9470) (m 7240) (m 5790) (m 4250)
  | .psigmaSF => byAngle (m 4000) (m 4000) (m 4000) (m 4000) (m 4000) (m 4000) (m 4000) (m 4000) (m 4000)
  | .psigmaXPR => byAngle (m 4000) (m 4000) (m 4000) (m 4000) (m 4000) (m 4000) (m 4000) (m 4000) (m 4000)
  | .psigmaZSA => byAngle (m 2220) (m 3040) (m 1330) (m 1450) (m 1620) (m 1060) (m 1880) (m 1870) (m 1190)
  | .psigmaZSD => byAngle (m 0) (m 0) (m 0) (m 0) (m 0) (m 0) (m 0) (m 0) (m 0)
  | .pzeta => byAngle (m 3000) (m 3000) (m 3000) (m 3000) (m 3000) (m 3000) (m 3000) (m 3000) (m 3000)

/-- `/repo/OpenNTN/models/Urban_LOS_Ka_band_UL.json` -/
def fileUrbanLOSKabandUL : ParamFile
  | .pCL => absent
  | .pCPhiNLoS => scalar (m 680)
  | .pCThetaNLoS => scalar (m 594)
  | .pLoSp => byAngle (m 246) (m 386) (m 493) (m 613) (m 726) (m 805) (m 919) (m 968) (m 992)
  | .pcASA => byAngle (m 11780) (m 11600) (m 13050) (m 14560) (m 15350) (m 16970) (m 17960) (m 20680) (m 25080)
  | .pcASD => byAngle (m 90) (m 90) (m 110) (m 150) (m 180) (m 270) (m 420) (m 860) (m 2550)
  | .pcDS => byAngle (m 1600) (m 1600) (m 1600) (m 1600) (m 1600) (m 1600) (m 1600) (m 1600) (m 1600)
  | .pcZSA => byAngle (m 1140) (m 2780) (m 3870) (m 4940) (m 5410) (m 6310) (m 6660) (m 7310) (m 9230)
  | .pcorrASAvsDS => byAngle (m 800) (m 800) (m 800) (m 800) (m 800) (m 800) (m 800) (m 800) (m 800)
  | .pcorrASAvsK => byAngle (m (-200)) (m (-200)) (m (-200)) (m (-200)) (m (-200)) (m (-200)) (m (-200)) (m (-200)) (m (-200))
  | .pcorrASAvsSF => byAngle (m (-500)) (m (-500)) (m (-500)) (m (-500)) (m (-500)) (m (-500)) (m (-500)) (m (-500)) (m (-500))
  | .pcorrASDvsASA => byAngle (m 0) (m 0) (m 0) (m 0) (m 0) (m 0) (m 0) (m 0) (m 0)
  | .pcorrASDvsDS => byAngle (m 400) (m 400) (m 400) (m 400) (m 400) (m 400) (m 400) (m 400) (m 400)
  | .pcorrASDvsK => byAngle (m 0) (m 0) (m 0) (m 0) (m 0) (m 0) (m 0) (m 0) (m 0)
  | .pcorrASDvsSF => byAngle (m (-500)) (m (-500)) (m (-500)) (m (-500)) (m (-500)) (m (-500)) (m (-500)) (m (-500)) (m (-500))
  | .pcorrDSvsK => byAngle (m (-400)) (m (-400)) (m (-400)) (m (-400)) (m (-400)) (m (-400)) (m (-400)) (m (-400)) (m (-400))
  | .pcorrDSvsSF => byAngle (m (-400)) (m (-400)) (m (-400)) (m (-400)) (m (-400)) (m (-400)) (m (-400)) (m (-400)) (m (-400))
  | .pcorrDistASA => byAngle (m 15000) (m 15000) (m 15000) (m 15000) (m 15000) (m 15000) (m 15000) (m 15000) (m 15000)
  | .pcorrDistASD => byAngle (m 18000) (m 18000) (m 18000) (m 18000) (m 18000) (m 18000) (m 18000) (m 18000) (m 18000)
  | .pcorrDistDS => byAngle (m 30000) (m 30000) (m 30000) (m 30000) (m 30000) (m 30000) (m 30000) (m 30000) (m 30000)
  | .pcorrDistK => byAngle (m 12000) (m 12000) (m 12000) (m 12000) (m 12000) (m 12000) (m 12000) (m 12000) (m 12000)
  | .pcorrDistSF => byAngle (m 37000) (m 37000) (m 37000) (m 37000) (m 37000) (m 37000) (m 37000) (m 37000) (m 37000)
  | .pcorrDistZSA => byAngle (m 15000) (m 15000) (m 15000) (m 15000) (m 15000) (m 15000) (m 15000) (m 15000) (m 15000)
  | .pcorrDistZSD => byAngle (m 15000) (m 15000) (m 15000) (m 15000) (m 15000) (m 15000) (m 15000) (m 15000) (m 15000)
  | .pcorrSFvsK => byAngle (m 0) (m 0) (m 0) (m 0) (m 0) (m 0) (m 0) (m 0) (m 0)
  | .pcorrZSAvsASA => byAngle (m 400) (m 400) (m 400) (m 400) (m 400) (m 400) (m 400) (m 400) (m 400)
  | .pcorrZSAvsASD => byAngle (m 0) (m 0) (m 0) (m 0) (m 0) (m 0) (m 0) (m 0) (m 0)
  | .pcorrZSAvsDS => byAngle (m 0) (m 0) (m 0) (m 0) (m 0) (m 0) (m 0) (m 0) (m 0)
  | .pcorrZSAvsK => byAngle (m 0) (m 0) (m 0) (m 0) (m 0) (m 0) (m 0) (m 0) (m 0)
  | .pcorrZSAvsSF => byAngle (m (-800)) (m (-800)) (m (-800)) (m (-800)) (m (-800)) (m (-800)) (m (-800)) (m (-800)) (m (-800))
  | .pcorrZSDvsASA => byAngle (m (-300)) (m (-300)) (m (-300)) (m (-300)) (m (-300)) (m (-300)) (m (-300)) (m (-300)) (m (-300))
  | .pcorrZSDvsASD => byAngle (m 500) (m 500) (m 500) (m 500) (m 500) (m 500) (m 500) (m 500) (m 500)
  | .pcorrZSDvsDS => byAngle (m (-200)) (m (-200)) (m (-200)) (m (-200)) (m (-200)) (m (-200)) (m (-200)) (m (-200)) (m (-200))
  | .pcorrZSDvsK => byAngle (m 0) (m 0) (m 0) (m 0) (m 0) (m 0) (m 0) (m 0) (m 0)
  | .pcorrZSDvsSF => byAngle (m 0) (m 0) (m 0) (m 0) (m 0) (m 0) (m 0) (m 0) (m 0)
  | .pcorrZSDvsZSA => byAngle (m 0) (m 0) (m 0) (m 0) (m 0) (m 0) (m 0) (m 0) (m 0)
  | .pmuASA => byAngle (m (-400)) (m (-150)) (m (-180)) (m (-310)) (m (-580)) (m (-900)) (m (-1160)) (m (-1480)) (m (-1140))
  | .pmuASD => byAngle (m (-3180)) (m (-3050)) (m (-2980)) (m (-3110)) (m (-3190)) (m (-3250)) (m (-3330)) (m (-3220)) (m (-2830))
  | .pmuDS => byAngle (m (-8520)) (m (-8590)) (m (-8510)) (m (-8490)) (m (-8480)) (m (-8440)) (m (-8400)) (m (-8370)) (m (-8350))
  | .pmuK => byAngle (m 40180) (m 23620) (m 12480) (m 8560) (m 7420) (m 5970) (m 4880) (m 4220) (m 3810)
  | .pmuXPR => byAngle (m 8000) (m 8000) (m 8000) (m 8000) (m 8000) (m 8000) (m 8000) (m 8000) (m 8000)
  | .pmuZSA => byAngle (m (-670)) (m (-340)) (m 70) (m (-80)) (m (-210)) (m (-250)) (m (-610)) (m (-790)) (m (-580))
  | .pmuZSD => byAngle (m (-2610)) (m (-2820)) (m (-2480)) (m (-2760)) (m (-2930)) (m (-3050)) (m (-3450)) (m (-3660)) (m (-3560))
  | .pnumClusters => byAngle (m 4000) (m 3000) (m 3000) (m 3000) (m 3000) (m 3000) (m 3000) (m 3000) (m 3000)
  | .prTau => byAngle (m 2500) (m 2500) (m 2500) (m 2500) (m 2500) (m 2500) (m 2500) (m 2500) (m 2500)
  | .psigmaASA => byAngle (m 770) (m 970) (m 1580) (m 1690) (m 2130) (m 2510) (m 2470) (m 2610) (m 1700)
  | .psigmaASD => byAngle (m 790) (m 870) (m 1040) (m 1060) (m 1120) (m 1140) (m 1250) (m 1350) (m 1620)
  | .psigmaDS => byAngle (m 920) (m 790) (m 650) (m 480) (m 460) (m 340) (m 270) (m 190) (m 140)
  | .psigmaK => byAngle (m 16990) (m 18960) (m 14230) (m 11060) (m 11210) (m 9470) (m 7240) (m 5790) (m 4250)
  | .psigmaSF => byAngle (m 4000) (m 4000) (m 4000) (m 4000) (m 4000) (m 4000) (m 4000) (m 4000) (m 4000)
  | .psigmaXPR => byAngle (m 4000) (m 4000) (m 4000) (m 4000) (m 4000) (m 4000) (m 4000) (m 4000) (m 4000)
  | .psigmaZSA => byAngle (m 2220) (m 3040) (m 1330) (m 1450) (m 1620) (m 1060) (m 1880) (m 1870) (m 1190)
  | .psigmaZSD => byAngle (m 2410) (m 2590) (m 1020) (m 1270) (m 1380) (m 960) (m 1510) (m 1490) (m 890)
  | .pzeta => byAngle (m 3000) (m 3000) (m 3000) (m 3000) (m 3000) (m 3000) (m 3000) (m 3000) (m 3000)

/-- `/repo/OpenNTN/models/Urban_LOS_S_band_DL.json` -/
def fileUrbanLOSSbandDL : ParamFile
  | .pCL => absent
  | .pCPhiNLoS => scalar (m 680)
  | .pCThetaNLoS => scalar (m 594)
  | .pLoSp => byAngle (m 246) (m 386) (m 493) (m 613) (m 726) (m 805) (m 919) (m 968) (m 992)
  | .pcASA => byAngle (m 12550) (m 12760) (m 14360) (m 16420) (m 17130) (m 19010) (m 19310) (m 22390) (m 27800)
  | .pcASD => byAngle (m 90) (m 90) (m 120) (m 160) (m 200) (m 280) (m 440) (m 900) (m 2870)
  | .pcDS => byAngle (m 3900) (m 3900) (m 3900) (m 3900) (m 3900) (m 3900) (m 3900) (m 3900) (m 3900)
  | .pcZSA => byAngle (m 1250) (m 3230) (m 4390) (m 5720) (m 6170) (m 7360) (m 7300) (m 7700) (m 9250)
  | .pcorrASAvsDS => byAngle (m 800) (m 800) (m 800) (m 800) (m 800) (m 800) (m 800) (m 800) (m 800)
  | .pcorrASAvsK => byAngle (m (-200)) (m (-200)) (m (-200)) (m (-200)) (m (-200)) (m (-200)) (m (-200)) (m (-200)) (m (-200))
  | .pcorrASAvsSF => byAngle (m (-500)) (m (-500)) (m (-500)) (m (-500)) (m (-500)) (m (-500)) (m (-500)) (m (-500)) (m (-500))
  | .pcorrASDvsASA => byAngle (m 0) (m 0) (m 0) (m 0) (m 0) (m 0) (m 0) (m 0) (m 0)
  | .pcorrASDvsDS => byAngle (m 0) (m 0) (m 0) (m 0) (m 0) (m 0) (m 0) (m 0) (m 0)
  | .pcorrASDvsK => byAngle (m 0) (m 0) (m 0) (m 0) (m 0) (m 0) (m 0) (m 0) (m 0)
  | .pcorrASDvsSF => byAngle (m 0) (m 0) (m 0) (m 0) (m 0) (m 0) (m 0) (m 0) (m 0)
  | .pcorrDSvsK => byAngle (m (-400)) (m (-400)) (m (-400)) (m (-400)) (m (-400)) (m (-400)) (m (-400)) (m (-400)) (m (-400))
  | .pcorrDSvsSF => byAngle (m (-400)) (m (-400)) (m (-400)) (m (-400)) (m (-400)) (m (-400)) (m (-400)) (m (-400)) (m (-400))
  | .pcorrDistASA => byAngle (m 15000) (m 15000) (m 15000) (m 15000) (m 15000) (m 15000) (m 15000) (m 15000) (m 15000)
  | .pcorrDistASD => byAngle (m 18000) (m 18000) (m 18000) (m 18000) (m 18000) (m 18000) (m 18000) (m 18000) (m 18000)
  | .pcorrDistDS => byAngle (m 30000) (m 30000) (m 30000) (m 30000) (m 30000) (m 30000) (m 30000) (m 30000) (m 30000)
  | .pcorrDistK => byAngle (m 12000) (m 12000) (m 12000) (m 12000) (m 12000) (m 12000) (m 12000) (m 12000) (m 12000)
  | .pcorrDistSF => byAngle (m 37000) (m 37000) (m 37000) (m 37000) (m 37000) (m 37000) (m 37000) (m 37000) (m 37000)
  | .pcorrDistZSA => byAngle (m 15000) (m 15000) (m 15000) (m 15000) (m 15000) (m 15000) (m 15000) (m 15000) (m 15000)
  | .pcorrDistZSD => byAngle (m 15000) (m 15000) (m 15000) (m 15000) (m 15000) (m 15000) (m 15000) (m 15000) (m 15000)
  | .pcorrSFvsK => byAngle (m 0) (m 0) (m 0) (m 0) (m 0) (m 0) (m 0) (m 0) (m 0)
  | .pcorrZSAvsASA => byAngle (m 400) (m 400) (m 400) (m 400) (m 400) (m 400) (m 400) (m 400) (m 400)
  | .pcorrZSAvsASD => byAngle (m 0) (m 0) (m 0) (m 0) (m 0) (m 0) (m 0) (m 0) (m 0)
  | .pcorrZSAvsDS => byAngle (m 0) (m 0) (m 0) (m 0) (m 0) (m 0) (m 0) (m 0) (m 0)
  | .pcorrZSAvsK => byAngle (m 0) (m 0) (m 0) (m 0) (m 0) (m 0) (m 0) (m 0) (m 0)
  | .pcorrZSAvsSF => byAngle (m (-800)) (m (-800)) (m (-800)) (m (-800)) (m (-800)) (m (-800)) (m (-800)) (m (-800)) (m (-800))
  | .pcorrZSDvsASA => byAngle (m 0) (m 0) (m 0) (m 0) (m 0) (m 0) (m 0) (m 0) (m 0)
  | .pcorrZSDvsASD => byAngle (m 0) (m 0) (m 0) (m 0) (m 0) (m 0) (m 0) (m 0) (m 0)
  | .pcorrZSDvsDS => byAngle (m 0) (m 0) (m 0) (m 0) (m 0) (m 0) (m 0) (m 0) (m 0)
  | .pcorrZSDvsK => byAngle (m 0) (m 0) (m 0) (m 0) (m 0) (m 0) (m 0) (m 0) (m 0)
  | .pcorrZSDvsSF => byAngle (m 0) (m 0) (m 0) (m 0) (m 0) (m 0) (m 0) (m 0) (m 0)
  | .pcorrZSDvsZSA => byAngle (m 0) (m 0) (m 0) (m 0) (m 0) (m 0) (m 0) (m 0) (m 0)
  | .pmuASA => byAngle (m 180) (m 420) (m 410) (m 180) (m (-70)) (m (-430)) (m (-640)) (m (-910)) (m (-540))
  | .pmuASD => byAngle ninf ninf ninf ninf ninf ninf ninf ninf ninf
  | .pmuDS => byAngle (m (-7970)) (m (-8120)) (m (-8210)) (m (-8310)) (m (-8370)) (m (-8390)) (m (-8380)) (m (-8350)) (m (-8340))
  | .pmuK => byAngle (m 31830) (m 18780) (m 10490) (m 7460) (m 6520) (m 5470) (m 4540) (m 4030) (m 3680)
  | .pmuXPR => byAngle (m 8000) (m 8000) (m 8000) (m 8000) (m 8000) (m 8000) (m 8000) (m 8000) (m 8000)
  | .pmuZSA => byAngle (m (-630)) (m (-150)) (m 540) (m 350) (m 270) (m 260) (m (-120)) (m (-210)) (m (-70))
  | .pmuZSD => byAngle ninf ninf ninf ninf ninf ninf ninf ninf ninf
  | .pnumClusters => byAngle (m 4000) (m 3000) (m 3000) (m 3000) (m 3000) (m 3000) (m 3000) (m 3000) (m 3000)
  | .prTau => byAngle (m 2500) (m 2500) (m 2500) (m 2500) (m 2500) (m 2500) (m 2500) (m 2500) (m 2500)
  | .psigmaASA => byAngle (m 740) (m 900) (m 1300) (m 1690) (m 2040) (m 2540) (m 2470) (m 2690) (m 1660)
  | .psigmaASD => byAngle (m 0) (m 0) (m 0) (m 0) (m 0) (m 0) (m 0) (m 0) (m 0)
  | .psigmaDS => byAngle (m 1000) (m 830) (m 680) (m 480) (m 380) (m 240) (m 180) (m 130) (m 90)
  | .psigmaK => byAngle (m 13840) (m 13780) (m 10420) (m 8010) (m 8270) (m 7260) (m 5530) (m 4490) (m 3140)
  | .psigmaSF => byAngle (m 4000) (m 4000) (m 4000) (m 4000) (m 4000) (m 4000) (m 4000) (m 4000) (m 4000)
  | .psigmaXPR => byAngle (m 4000) (m 4000) (m 4000) (m 4000) (m 4000) (m 4000) (m 4000) (m 4000) (m 4000)
  | .psigmaZSA => byAngle (m 2600) (m 3310) (m 1100) (m 1590) (m 1620) (m 970) (m 1990) (m 1820) (m 1430)
  | .psigmaZSD => byAngle (m 0) (m 0) (m 0) (m 0) (m 0) (m 0) (m 0) (m 0) (m 0)
  | .pzeta => byAngle (m 3000) (m 3000) (m 3000) (m 3000) (m 3000) (m 3000) (m 3000) (m 3000) (m 3000)

/-- `/repo/OpenNTN/models/Urban_LOS_S_band_UL.json` -/
def fileUrbanLOSSbandUL : ParamFile
  | .pCL => absent
  | .pCPhiNLoS => scalar (m 680)
  | .pCThetaNLoS => scalar (m 594)
  | .pLoSp => byAngle (m 246) (m 386) (m 493) (m 613) (m 726) (m 805) (m 919) (m 968) (m 992)
  | .pcASA => byAngle (m 12550) (m 12760) (m 14360) (m 16420) (m 17130) (m 19010) (m 19310) (m 22390) (m 27800)
  | .pcASD => byAngle (m 90) (m 90) (m 120) (m 160) (m 200) (m 280) (m 440) (m 900) (m 2870)
  | .pcDS => byAngle (m 3900) (m 3900) (m 3900) (m 3900) (m 3900) (m 3900) (m 3900) (m 3900) (m 3900)
  | .pcZSA => byAngle (m 1250) (m 3230) (m 4390) (m 5720) (m 6170) (m 7360) (m 7300) (m 7700) (m 9250)
  | .pcorrASAvsDS => byAngle (m 800) (m 800) (m 800) (m 800) (m 800) (m 800) (m 800) (m 800) (m 800)
  | .pcorrASAvsK => byAngle (m (-200)) (m (-200)) (m (-200)) (m (-200)) (m (-200)) (m (-200)) (m (-200)) (m (-200)) (m (-200))
  | .pcorrASAvsSF => byAngle (m (-500)) (m (-500)) (m (-500)) (m (-500)) (m (-500)) (m (-500)) (m (-500)) (m (-500)) (m (-500))
  | .pcorrASDvsASA => byAngle (m 0) (m 0) (m 0) (m 0) (m 0) (m 0) (m 0) (m 0) (m 0)
  | .pcorrASDvsDS => byAngle (m 400) (m 400) (m 400) (m 400) (m 400) (m 400) (m 400) (m 400) (m 400)
  | .pcorrASDvsK => byAngle (m 0) (m 0) (m 0) (m 0) (m 0) (m 0) (m 0) (m 0) (m 0)
  | .pcorrASDvsSF => byAngle (m (-500)) (m (-500)) (m (-500)) (m (-500)) (m (-500)) (m (-500)) (m (-500)) (m (-500)) (m (-500))
  | .pcorrDSvsK => byAngle (m (-400)) (m (-400)) (m (-400)) (m (-400)) (m (-400)) (m (-400)) (m (-400)) (m (-400)) (m (-400))
  | .pcorrDSvsSF => byAngle (m (-400)) (m (-400)) (m (-400)) (m (-400)) (m (-400)) (m (-400)) (m (-400)) (m (-400)) (m (-400))
  | .pcorrDistASA => byAngle (m 15000) (m 15000) (m 15000) (m 15000) (m 15000) (m 15000) (m 15000) (m 15000) (m 15000)
  | .pcorrDistASD => byAngle (m 18000) (m 18000) (m 18000) (m 18000) (m 18000) (m 18000) (m 18000) (m 18000) (m 18000)
  | .pcorrDistDS => byAngle (m 30000) (m 30000) (m 30000) (m 30000) (m 30000) (m 30000) (m 30000) (m 30000) (m 30000)
  | .pcorrDistK => byAngle (m 12000) (m 12000) (m 12000) (m 12000) (m 12000) (m 12000) (m 12000) (m 12000) (m 12000)
  | .pcorrDistSF => byAngle (m 37000) (m 37000) (m 37000) (m 37000) (m 37000) (m 37000) (m 37000) (m 37000) (m 37000)
  | .pcorrDistZSA => byAngle (m 15000) (m 15000) (m 15000) (m 15000) (m 15000) (m 15000) (m 15000) (m 15000) (m 15000)
  | .pcorrDistZSD => byAngle (m 15000) (m 15000) (m 15000) (m 15000) (m 15000) (m 15000) (m 15000) (m 15000) (m 15000)
  | .pcorrSFvsK => byAngle (m 0) (m 0) (m 0) (m 0) (m 0) (m 0) (m 0) (m 0) (m 0)
  | .pcorrZSAvsASA => byAngle (m 400) (m 400) (m 400) (m 400) (m 400) (m 400) (m 400) (m 400) (m 400)
  | .pcorrZSAvsASD => byAngle (m 0) (m 0) (m 0) (m 0) (m 0) (m 0) (m 0) (m 0) (m 0)
  | .pcorrZSAvsDS => byAngle (m 0) (m 0) (m 0) (m 0) (m 0) (m 0) (m 0) (m 0) (m 0)
  | .pcorrZSAvsK => byAngle (m 0) (m 0) (m 0) (m 0) (m 0) (m 0) (m 0) (m 0) (m 0)
  | .pcorrZSAvsSF => byAngle (m (-800)) (m (-800)) (m (-800)) (m (-800)) (m (-800)) (m (-800)) (m (-800)) (m (-800)) (m (-800))
  | .pcorrZSDvsASA => byAngle (m (-300)) (m (-300)) (m (-300)) (m (-300)) (m (-300)) (m (-300)) (m (-300)) (m (-300)) (m (-300))
  | .pcorrZSDvsASD => byAngle (m 500) (m 500) (m 500) (m 500) (m 500) (m 500) (m 500) (m 500) (m 500)
  | .pcorrZSDvsDS => byAngle (m (-200)) (m (-200)) (m (-200)) (m (-200)) (m (-200)) (m (-200)) (m (-200)) (m (-200)) (m (-200))
  | .pcorrZSDvsK => byAngle (m 0) (m 0) (m 0) (m 0) (m 0) (m 0) (m 0) (m 0) (m 0)
  | .pcorrZSDvsSF => byAngle (m 0) (m 0) (m 0) (m 0) (m 0) (m 0) (m 0) (m 0) (m 0)
  | .pcorrZSDvsZSA => byAngle (m 0) (m 0) (m 0) (m 0) (m 0) (m 0) (m 0) (m 0) (m 0)
  | .pmuASA => byAngle (m 180) (m 420) (m 410) (m 180) (m (-70)) (m (-430)) (m (-640)) (m (-910)) (m (-540))
  | .pmuASD => byAngle (m (-2600)) (m (-2480)) (m (-2440)) (m (-2600)) (m (-2710)) (m (-2760)) (m (-2780)) (m (-2650)) (m (-2270))
  | .pmuDS => byAngle (m (-7970)) (m (-8120)) (m (-8210)) (m (-8310)) (m (-8370)) (m (-8390)) (m (-8380)) (m (-8350)) (m (-8340))
  | .pmuK => byAngle (m 31830) (m 18780) (m 10490) (m 7460) (m 6520) (m 5470) (m 4540) (m 4030) (m 3680)
  | .pmuXPR => byAngle (m 8000) (m 8000) (m 8000) (m 8000) (m 8000) (m 8000) (m 8000) (m 8000) (m 8000)
  | .pmuZSA => byAngle (m (-630)) (m (-150)) (m 540) (m 350) (m 270) (m 260) (m (-120)) (m (-210)) (m (-70))
  | .pmuZSD => byAngle (m (-2540)) (m (-2670)) (m (-2030)) (m (-2280)) (m (-2480)) (m (-2560)) (m (-2960)) (m (-3080)) (m (-3000))
  | .pnumClusters => byAngle (m 4000) (m 3000) (m 3000) (m 3000) (m 3000) (m 3000) (m 3000) (m 3000) (m 3000)
  | .prTau => byAngle (m 2500) (m 2500) (m 2500) (m 2500) (m 2500) (m 2500) (m 2500) (m 2500) (m 2500)
  | .psigmaASA => byAngle (m 740) (m 900) (m 1300) (m 1690) (m 2040) (m 2540) (m 2470) (m 2690) (m 1660)
  | .psigmaASD => byAngle (m 790) (m 800) (m 910) (m 1020) (m 1170) (m 1170) (m 1200) (m 1450) (m 1850)
  | .psigmaDS => byAngle (m 1000) (m 830) (m 680) (m 480) (m 380) (m 240) (m 180) (m 130) (m 90)
  | .psigmaK => byAngle (m 13840) (m 13780) (m 10420) (m 8010) (m 8270) (m 7260) (m 5530) (m 4490) (m 3140)
  | .psigmaSF => byAngle (m 4000) (m 4000) (m 4000) (m 4000) (m 4000) (m 4000) (m 4000) (m 4000) (m 4000)
  | .psigmaXPR => byAngle (m 4000) (m 4000) (m 4000) (m 4000) (m 4000) (m 4000) (m 4000) (m 4000) (m 4000)
  | .psigmaZSA => byAngle (m 2600) (m 3310) (m 1100) (m 1590) (m 1620) (m 970) (m 1990) (m 1820) (m 1430)
  | .psigmaZSD => byAngle (m 2620) (m 2960) (m 860) (m 1190) (m 1400) (m 850) (m 1610) (m 1490) (m 1090)
  | .pzeta => byAngle (m 3000) (m 3000) (m 3000) (m 3000) (m 3000) (m 3000) (m 3000) (m 3000) (m 3000)

/-- `/repo/OpenNTN/models/Urban_NLOS_Ka_band_DL.json` -/
def fileUrbanNLOSKabandDL : ParamFile
  | .pCL => byAngle (m 44300) (m 39900) (m 37500) (m 35800) (m 34600) (m 33800) (m 33300) (m 33000) (m 32900)
  | .pCPhiNLoS => scalar (m 680)
  | .pCThetaNLoS => scalar (m 594)
  | .pLoSp => byAngle (m 246) (m 386) (m 493) (m 613) (m 726) (m 805) (m 919) (m 968) (m 992)
  | .pcASA => byAngle (m 14720) (m 14620) (m 18140) (m 16040) (m 17860) (m 19730) (m 20500) (m 26160) (m 25830)
  | .pcASD => byAngle (m 80) (m 100) (m 140) (m 220) (m 310) (m 490) (m 970) (m 1520) (m 5360)
  | .pcDS => byAngle (m 1600) (m 1600) (m 1600) (m 1600) (m 1600) (m 1600) (m 1600) (m 1600) (m 1600)
  | .pcZSA => byAngle (m 1570) (m 4300) (m 6640) (m 9210) (m 10320) (m 10300) (m 10200) (m 12270) (m 12750)
  | .pcorrASAvsDS => byAngle (m 380) (m 370) (m 290) (m 300) (m 230) (m 210) (m 230) (m 230) (m 360)
  | .pcorrASAvsK => byAngle (m 0) (m 0) (m 0) (m 0) (m 0) (m 0) (m 0) (m 0) (m 0)
  | .pcorrASAvsSF => byAngle (m (-50)) (m (-40)) (m (-40)) (m (-40)) (m (-30)) (m (-50)) (m (-30)) (m (-10)) (m (-30))
  | .pcorrASDvsASA => byAngle (m 0) (m 0) (m 0) (m 0) (m 0) (m 0) (m 0) (m 0) (m 0)
  | .pcorrASDvsDS => byAngle (m 0) (m 0) (m 0) (m 0) (m 0) (m 0) (m 0) (m 0) (m 0)
  | .pcorrASDvsK => byAngle (m 0) (m 0) (m 0) (m 0) (m 0) (m 0) (m 0) (m 0) (m 0)
  | .pcorrASDvsSF => byAngle (m 0) (m 0) (m 0) (m 0) (m 0) (m 0) (m 0) (m 0) (m 0)
  | .pcorrDSvsK => byAngle (m 0) (m 0) (m 0) (m 0) (m 0) (m 0) (m 0) (m 0) (m 0)
  | .pcorrDSvsSF => byAngle (m (-210)) (m (-250)) (m (-210)) (m (-260)) (m (-250)) (m (-200)) (m (-190)) (m (-200)) (m (-190))
  | .pcorrDistASA => byAngle (m 50000) (m 50000) (m 50000) (m 50000) (m 50000) (m 50000) (m 50000) (m 50000) (m 50000)
  | .pcorrDistASD => byAngle (m 50000) (m 50000) (m 50000) (m 50000) (m 50000) (m 50000) (m 50000) (m 50000) (m 50000)
  | .pcorrDistDS => byAngle (m 40000) (m 40000) (m 40000) (m 40000) (m 40000) (m 40000) (m 40000) (m 40000) (m 40000)
  | .pcorrDistK => byAngle (m 1000) (m 1000) (m 1000) (m 1000) (m 1000) (m 1000) (m 1000) (m 1000) (m 1000)
  | .pcorrDistSF => byAngle (m 50000) (m 50000) (m 50000) (m 50000) (m 50000) (m 50000) (m 50000) (m 50000) (m 50000)
  | .pcorrDistZSA => byAngle (m 50000) (m 50000) (m 50000) (m 50000) (m 50000) (m 50000) (m 50000) (m 50000) (m 50000)
  | .pcorrDistZSD => byAngle (m 50000) (m 50000) (m 50000) (m 50000) (m 50000) (m 50000) (m 50000) (m 50000) (m 50000)
  | .pcorrSFvsK => byAngle (m 0) (m 0) (m 0) (m 0) (m 0) (m 0) (m 0) (m 0) (m 0)
  | .pcorrZSAvsASA => byAngle (m 50) (m 130) (m 160) (m 160) (m 180) (m 210) (m 20) (m (-130)) (m (-350))
  | .pcorrZSAvsASD => byAngle (m 0) (m 0) (m 0) (m 0) (m 0) (m 0) (m 0) (m 0) (m 0)
  | .pcorrZSAvsDS => byAngle (m 60) (m 100) (m 110) (m 130) (m (-40)) (m (-140)) (m (-110)) (m (-240)) (m (-190))
  | .pcorrZSAvsK => byAngle (m 0) (m 0) (m 0) (m 0) (m 0) (m 0) (m 0) (m 0) (m 0)
  | .pcorrZSAvsSF => byAngle (m (-310)) (m (-320)) (m (-330)) (m (-330)) (m (-410)) (m (-400)) (m (-360)) (m (-370)) (m (-330))
  | .pcorrZSDvsASA => byAngle (m 0) (m 0) (m 0) (m 0) (m 0) (m 0) (m 0) (m 0) (m 0)
  | .pcorrZSDvsASD => byAngle (m 0) (m 0) (m 0) (m 0) (m 0) (m 0) (m 0) (m 0) (m 0)
  | .pcorrZSDvsDS => byAngle (m 0) (m 0) (m 0) (m 0) (m 0) (m 0) (m 0) (m 0) (m 0)
  | .pcorrZSDvsK => byAngle (m 0) (m 0) (m 0) (m 0) (m 0) (m 0) (m 0) (m 0) (m 0)
  | .pcorrZSDvsSF => byAngle (m 0) (m 0) (m 0) (m 0) (m 0) (m 0) (m 0) (m 0) (m 0)
  | .pcorrZSDvsZSA => byAngle (m 0) (m 0) (m 0) (m 0) (m 0) (m 0) (m 0) (m 0) (m 0)
  | .pmuASA => byAngle (m 130) (m 190) (m 440) (m 480) (m 560) (m 550) (m 480) (m 530) (m 320)
  | .pmuASD => byAngle ninf ninf ninf ninf ninf ninf ninf ninf ninf
  | .pmuDS => byAngle (m (-7240)) (m (-7700)) (m (-7820)) (m (-8040)) (m (-8080)) (m (-8100)) (m (-8160)) (m (-8030)) (m (-8330))
  | .pmuK => byAngle (m 0) (m 0) (m 0) (m 0) (m 0) (m 0) (m 0) (m 0) (m 0)
  | .pmuXPR => byAngle (m 7000) (m 7000) (m 7000) (m 7000) (m 7000) (m 7000) (m 7000) (m 7000) (m 7000)
  | .pmuZSA => byAngle (m (-1130)) (m 490) (m 950) (m 1150) (m 1140) (m 1130) (m 1160) (m 1280) (m 1420)
  | .pmuZSD => byAngle ninf ninf ninf ninf ninf ninf ninf ninf ninf
  | .pnumClusters => byAngle (m 3000) (m 3000) (m 3000) (m 3000) (m 3000) (m 3000) (m 2000) (m 2000) (m 2000)
  | .prTau => byAngle (m 2300) (m 2300) (m 2300) (m 2300) (m 2300) (m 2300) (m 2300) (m 2300) (m 2300)
  | .psigmaASA => byAngle (m 2990) (m 3120) (m 2690) (m 2450) (m 2170) (m 1930) (m 1720) (m 1510) (m 1200)
  | .psigmaASD => byAngle (m 0) (m 0) (m 0) (m 0) (m 0) (m 0) (m 0) (m 0) (m 0)
  | .psigmaDS => byAngle (m 1260) (m 990) (m 860) (m 750) (m 770) (m 760) (m 730) (m 790) (m 700)
  | .psigmaK => byAngle (m 0) (m 0) (m 0) (m 0) (m 0) (m 0) (m 0) (m 0) (m 0)
  | .psigmaSF => byAngle (m 6000) (m 6000) (m 6000) (m 6000) (m 6000) (m 6000) (m 6000) (m 6000) (m 6000)
  | .psigmaXPR => byAngle (m 3000) (m 3000) (m 3000) (m 3000) (m 3000) (m 3000) (m 3000) (m 3000) (m 3000)
  | .psigmaZSA => byAngle (m 2660) (m 2030) (m 1540) (m 1020) (m 1610) (m 1840) (m 1810) (m 1350) (m 600)
  | .psigmaZSD => byAngle (m 0) (m 0) (m 0) (m 0) (m 0) (m 0) (m 0) (m 0) (m 0)
  | .pzeta => byAngle (m 3000) (m 3000) (m 3000) (m 3000) (m 3000) (m 3000) (m 3000) (m 3000) (m 3000)

/-- `/repo/OpenNTN/models/Urban_NLOS_Ka_band_UL.json` -/
def fileUrbanNLOSKabandUL : ParamFile
  | .pCL => byAngle (m 44300) (m 39900) (m 37500) (m 35800) (m 34600) (m 33800) (m 33300) (m 33000) (m 32900)
  | .pCPhiNLoS => scalar (m 680)
  | .pCThetaNLoS => scalar (m 594)
  | .pLoSp => byAngle (m 246) (m 386) (m 493) (m 613) (m 726) (m 805) (m 919) (m 968) (m 992)
  | .pcASA => byAngle (m 14720) (m 14620) (m 18140) (m 16040) (m 17860) (m 19730) (m 20500) (m 26160) (m 25830)
  | .pcASD => byAngle (m 80) (m 100) (m 140) (m 220) (m 310) (m 490) (m 970) (m 1520) (m 5360)
  | .pcDS => byAngle (m 1600) (m 1600) (m 1600) (m 1600) (m 1600) (m 1600) (m 1600) (m 1600) (m 1600)
  | .pcZSA => byAngle (m 1570) (m 4300) (m 6640) (m 9210) (m 10320) (m 10300) (m 10200) (m 12270) (m 12750)
  | .pcorrASAvsDS => byAngle (m 380) (m 370) (m 290) (m 300) (m 230) (m 210) (m 230) (m 230) (m 360)
  | .pcorrASAvsK => byAngle (m 0) (m 0) (m 0) (m 0) (m 0) (m 0) (m 0) (m 0) (m 0)
  | .pcorrASAvsSF => byAngle (m (-50)) (m (-40)) (m (-40)) (m (-40)) (m (-30)) (m (-50)) (m (-30)) (m (-10)) (m (-30))
  | .pcorrASDvsASA => byAngle (m 410) (m 420) (m 340) (m 380) (m 280) (m 200) (m 260) (m 230) (m 310)
  | .pcorrASDvsDS => byAngle (m 550) (m 470) (m 550) (m 520) (m 550) (m 570) (m 610) (m 590) (m 650)
  | .pcorrASDvsK => byAngle (m 0) (m 0) (m 0) (m 0) (m 0) (m 0) (m 0) (m 0) (m 0)
  | .pcorrASDvsSF => byAngle (m (-480)) (m (-520)) (m (-520)) (m (-530)) (m (-570)) (m (-530)) (m (-500)) (m (-490)) (m (-380))
  | .pcorrDSvsK => byAngle (m 0) (m 0) (m 0) (m 0) (m 0) (m 0) (m 0) (m 0) (m 0)
  | .pcorrDSvsSF => byAngle (m (-210)) (m (-250)) (m (-210)) (m (-260)) (m (-250)) (m (-200)) (m (-190)) (m (-200)) (m (-190))
  | .pcorrDistASA => byAngle (m 50000) (m 50000) (m 50000) (m 50000) (m 50000) (m 50000) (m 50000) (m 50000) (m 50000)
  | .pcorrDistASD => byAngle (m 50000) (m 50000) (m 50000) (m 50000) (m 50000) (m 50000) (m 50000) (m 50000) (m 50000)
  | .pcorrDistDS => byAngle (m 40000) (m 40000) (m 40000) (m 40000) (m 40000) (m 40000) (m 40000) (m 40000) (m 40000)
  | .pcorrDistK => byAngle (m 1000) (m 1000) (m 1000) (m 1000) (m 1000) (m 1000) (m 1000) (m 1000) (m 1000)
  | .pcorrDistSF => byAngle (m 50000) (m 50000) (m 50000) (m 50000) (m 50000) (m 50000) (m 50000) (m 50000) (m 50000)
  | .pcorrDistZSA => byAngle (m 50000) (m 50000) (m 50000) (m 50000) (m 50000) (m 50000) (m 50000) (m 50000) (m 50000)
  | .pcorrDistZSD => byAngle (m 50000) (m 50000) (m 50000) (m 50000) (m 50000) (m 50000) (m 50000) (m 50000) (m 50000)
  | .pcorrSFvsK => byAngle (m 0) (m 0) (m 0) (m 0) (m 0) (m 0) (m 0) (m 0) (m 0)
  | .pcorrZSAvsASA => byAngle (m 50) (m 130) (m 160) (m 160) (m 180) (m 210) (m 20) (m (-130)) (m (-350))
  | .pcorrZSAvsASD => byAngle (m 60) (m 120) (m 140) (m 180) (m 10) (m (-100)) (m (-110)) (m (-240)) (m (-200))
  | .pcorrZSAvsDS => byAngle (m 60) (m 100) (m 110) (m 130) (m (-40)) (m (-140)) (m (-110)) (m (-240)) (m (-190))
  | .pcorrZSAvsK => byAngle (m 0) (m 0) (m 0) (m 0) (m 0) (m 0) (m 0) (m 0) (m 0)
  | .pcorrZSAvsSF => byAngle (m (-310)) (m (-320)) (m (-330)) (m (-330)) (m (-410)) (m (-400)) (m (-360)) (m (-370)) (m (-330))
  | .pcorrZSDvsASA => byAngle (m 400) (m 410) (m 340) (m 380) (m 310) (m 250) (m 230) (m 220) (m 290)
  | .pcorrZSDvsASD => byAngle (m 520) (m 480) (m 590) (m 550) (m 540) (m 600) (m 640) (m 600) (m 600)
  | .pcorrZSDvsDS => byAngle (m 680) (m 720) (m 680) (m 670) (m 650) (m 670) (m 630) (m 610) (m 540)
  | .pcorrZSDvsK => byAngle (m 0) (m 0) (m 0) (m 0) (m 0) (m 0) (m 0) (m 0) (m 0)
  | .pcorrZSDvsSF => byAngle (m (-20)) (m 0) (m 10) (m 10) (m 30) (m 30) (m (-20)) (m (-50)) (m (-120))
  | .pcorrZSDvsZSA => byAngle (m (-20)) (m 40) (m 90) (m 110) (m 0) (m (-90)) (m (-150)) (m (-290)) (m (-330))
  | .pmuASA => byAngle (m 130) (m 190) (m 440) (m 480) (m 560) (m 550) (m 480) (m 530) (m 320)
  | .pmuASD => byAngle (m (-1580)) (m (-1670)) (m (-1840)) (m (-2020)) (m (-2060)) (m (-1990)) (m (-2190)) (m (-1880)) (m (-2000))
  | .pmuDS => byAngle (m (-7240)) (m (-7700)) (m (-7820)) (m (-8040)) (m (-8080)) (m (-8100)) (m (-8160)) (m (-8030)) (m (-8330))
  | .pmuK => byAngle (m 0) (m 0) (m 0) (m 0) (m 0) (m 0) (m 0) (m 0) (m 0)
  | .pmuXPR => byAngle (m 7000) (m 7000) (m 7000) (m 7000) (m 7000) (m 7000) (m 7000) (m 7000) (m 7000)
  | .pmuZSA => byAngle (m (-1130)) (m 490) (m 950) (m 1150) (m 1140) (m 1130) (m 1160) (m 1280) (m 1420)
  | .pmuZSD => byAngle (m (-2870)) (m (-2680)) (m (-2120)) (m (-2270)) (m (-2500)) (m (-2470)) (m (-2830)) (m (-2820)) (m (-4550))
  | .pnumClusters => byAngle (m 3000) (m 3000) (m 3000) (m 3000) (m 3000) (m 3000) (m 2000) (m 2000) (m 2000)
  | .prTau => byAngle (m 2300) (m 2300) (m 2300) (m 2300) (m 2300) (m 2300) (m 2300) (m 2300) (m 2300)
  | .psigmaASA => byAngle (m 2990) (m 3120) (m 2690) (m 2450) (m 2170) (m 1930) (m 1720) (m 1510) (m 1200)
  | .psigmaASD => byAngle (m 890) (m 890) (m 1300) (m 1150) (m 1230) (m 1020) (m 1780) (m 1550) (m 1400)
  | .psigmaDS => byAngle (m 1260) (m 990) (m 860) (m 750) (m 770) (m 760) (m 730) (m 790) (m 700)
  | .psigmaK => byAngle (m 0) (m 0) (m 0) (m 0) (m 0) (m 0) (m 0) (m 0) (m 0)
  | .psigmaSF => byAngle (m 6000) (m 6000) (m 6000) (m 6000) (m 6000) (m 6000) (m 6000) (m 6000) (m 6000)
  | .psigmaXPR => byAngle (m 3000) (m 3000) (m 3000) (m 3000) (m 3000) (m 3000) (m 3000) (m 3000) (m 3000)
  | .psigmaZSA => byAngle (m 2660) (m 2030) (m 1540) (m 1020) (m 1610) (m 1840) (m 1810) (m 1350) (m 600)
  | .psigmaZSD => byAngle (m 2760) (m 2760) (m 1540) (m 1770) (m 2360) (m 2330) (m 2840) (m 2870) (m 4270)
  | .pzeta => byAngle (m 3000) (m 3000) (m 3000) (m 3000) (m 3000) (m 3000) (m 3000) (m 3000) (m 3000)

/-- `/repo/OpenNTN/models/Urban_NLOS_S_band_DL.json` -/
def fileUrbanNLOSSbandDL : ParamFile
  | .pCL => byAngle (m 34300) (m 30900) (m 29000) (m 27700) (m 26800) (m 26200) (m 25800) (m 25500) (m 25500)
  | .pCPhiNLoS => scalar (m 680)
  | .pCThetaNLoS => scalar (m 594)
  | .pLoSp => byAngle (m 246) (m 386) (m 493) (m 613) (m 726) (m 805) (m 919) (m 968) (m 992)
  | .pcASA => byAngle (m 15070) (m 16200) (m 18140) (m 19960) (m 21530) (m 22440) (m 23590) (m 26570) (m 32700)
  | .pcASD => byAngle (m 80) (m 100) (m 140) (m 230) (m 330) (m 530) (m 1000) (m 1400) (m 6630)
  | .pcDS => byAngle (m 3900) (m 3900) (m 3900) (m 3900) (m 3900) (m 3900) (m 3900) (m 3900) (m 3900)
  | .pcZSA => byAngle (m 1660) (m 4710) (m 7330) (m 9820) (m 11520) (m 11750) (m 10930) (m 12190) (m 16680)
  | .pcorrASAvsDS => byAngle (m 380) (m 360) (m 270) (m 290) (m 210) (m 240) (m 220) (m 240) (m 240)
  | .pcorrASAvsK => byAngle (m 0) (m 0) (m 0) (m 0) (m 0) (m 0) (m 0) (m 0) (m 0)
  | .pcorrASAvsSF => byAngle (m (-50)) (m (-40)) (m (-40)) (m (-40)) (m (-30)) (m (-50)) (m (-20)) (m (-10)) (m 0)
  | .pcorrASDvsASA => byAngle (m 0) (m 0) (m 0) (m 0) (m 0) (m 0) (m 0) (m 0) (m 0)
  | .pcorrASDvsDS => byAngle (m 0) (m 0) (m 0) (m 0) (m 0) (m 0) (m 0) (m 0) (m 0)
  | .pcorrASDvsK => byAngle (m 0) (m 0) (m 0) (m 0) (m 0) (m 0) (m 0) (m 0) (m 0)
  | .pcorrASDvsSF => byAngle (m 0) (m 0) (m 0) (m 0) (m 0) (m 0) (m 0) (m 0) (m 0)
  | .pcorrDSvsK => byAngle (m 0) (m 0) (m 0) (m 0) (m 0) (m 0) (m 0) (m 0) (m 0)
  | .pcorrDSvsSF => byAngle (m (-220)) (m (-260)) (m (-210)) (m (-250)) (m (-210)) (m (-190)) (m (-190)) (m (-200)) (m (-200))
  | .pcorrDistASA => byAngle (m 50000) (m 50000) (m 50000) (m 50000) (m 50000) (m 50000) (m 50000) (m 50000) (m 50000)
  | .pcorrDistASD => byAngle (m 50000) (m 50000) (m 50000) (m 50000) (m 50000) (m 50000) (m 50000) (m 50000) (m 50000)
  | .pcorrDistDS => byAngle (m 40000) (m 40000) (m 40000) (m 40000) (m 40000) (m 40000) (m 40000) (m 40000) (m 40000)
  | .pcorrDistK => byAngle (m 1000) (m 1000) (m 1000) (m 1000) (m 1000) (m 1000) (m 1000) (m 1000) (m 1000)
  | .pcorrDistSF => byAngle (m 50000) (m 50000) (m 50000) (m 50000) (m 50000) (m 50000) (m 50000) (m 50000) (m 50000)
  | .pcorrDistZSA => byAngle (m 50000) (m 50000) (m 50000) (m 50000) (m 50000) (m 50000) (m 50000) (m 50000) (m 50000)
  | .pcorrDistZSD => byAngle (m 50000) (m 50000) (m 50000) (m 50000) (m 50000) (m 50000) (m 50000) (m 50000) (m 50000)
  | .pcorrSFvsK => byAngle (m 0) (m 0) (m 0) (m 0) (m 0) (m 0) (m 0) (m 0) (m 0)
  | .pcorrZSAvsASA => byAngle (m 40) (m 130) (m 160) (m 130) (m 130) (m 140) (m (-20)) (m (-200)) (m (-460))
  | .pcorrZSAvsASD => byAngle (m 0) (m 0) (m 0) (m 0) (m 0) (m 0) (m 0) (m 0) (m 0)
  | .pcorrZSAvsDS => byAngle (m 50) (m 90) (m 90) (m 90) (m (-30)) (m (-150)) (m (-130)) (m (-290)) (m (-190))
  | .pcorrZSAvsK => byAngle (m 0) (m 0) (m 0) (m 0) (m 0) (m 0) (m 0) (m 0) (m 0)
  | .pcorrZSAvsSF => byAngle (m (-310)) (m (-330)) (m (-330)) (m (-330)) (m (-380)) (m (-390)) (m (-370)) (m (-370)) (m (-360))
  | .pcorrZSDvsASA => byAngle (m 0) (m 0) (m 0) (m 0) (m 0) (m 0) (m 0) (m 0) (m 0)
  | .pcorrZSDvsASD => byAngle (m 0) (m 0) (m 0) (m 0) (m 0) (m 0) (m 0) (m 0) (m 0)
  | .pcorrZSDvsDS => byAngle (m 0) (m 0) (m 0) (m 0) (m 0) (m 0) (m 0) (m 0) (m 0)
  | .pcorrZSDvsK => byAngle (m 0) (m 0) (m 0) (m 0) (m 0) (m 0) (m 0) (m 0) (m 0)
  | .pcorrZSDvsSF => byAngle (m 0) (m 0) (m 0) (m 0) (m 0) (m 0) (m 0) (m 0) (m 0)
  | .pcorrZSDvsZSA => byAngle (m 0) (m 0) (m 0) (m 0) (m 0) (m 0) (m 0) (m 0) (m 0)
  | .pmuASA => byAngle (m 170) (m 320) (m 520) (m 610) (m 680) (m 640) (m 580) (m 710) (m 490)
  | .pmuASD => byAngle ninf ninf ninf ninf ninf ninf ninf ninf ninf
  | .pmuDS => byAngle (m (-7210)) (m (-7630)) (m (-7750)) (m (-7970)) (m (-7990)) (m (-8010)) (m (-8090)) (m (-7970)) (m (-8170))
  | .pmuK => byAngle (m 0) (m 0) (m 0) (m 0) (m 0) (m 0) (m 0) (m 0) (m 0)
  | .pmuXPR => byAngle (m 7000) (m 7000) (m 7000) (m 7000) (m 7000) (m 7000) (m 7000) (m 7000) (m 7000)
  | .pmuZSA => byAngle (m (-970)) (m 490) (m 1030) (m 1120) (m 1300) (m 1320) (m 1350) (m 1310) (m 1500)
  | .pmuZSD => byAngle ninf ninf ninf ninf ninf ninf ninf ninf ninf
  | .pnumClusters => byAngle (m 3000) (m 3000) (m 3000) (m 3000) (m 3000) (m 3000) (m 2000) (m 2000) (m 2000)
  | .prTau => byAngle (m 2300) (m 2300) (m 2300) (m 2300) (m 2300) (m 2300) (m 2300) (m 2300) (m 2300)
  | .psigmaASA => byAngle (m 2970) (m 2990) (m 2710) (m 2260) (m 2080) (m 1930) (m 1710) (m 960) (m 1160)
  | .psigmaASD => byAngle (m 0) (m 0) (m 0) (m 0) (m 0) (m 0) (m 0) (m 0) (m 0)
  | .psigmaDS => byAngle (m 1190) (m 980) (m 840) (m 730) (m 730) (m 720) (m 710) (m 780) (m 670)
  | .psigmaK => byAngle (m 0) (m 0) (m 0) (m 0) (m 0) (m 0) (m 0) (m 0) (m 0)
  | .psigmaSF => byAngle (m 6000) (m 6000) (m 6000) (m 6000) (m 6000) (m 6000) (m 6000) (m 6000) (m 6000)
  | .psigmaXPR => byAngle (m 3000) (m 3000) (m 3000) (m 3000) (m 3000) (m 3000) (m 3000) (m 3000) (m 3000)
  | .psigmaZSA => byAngle (m 2350) (m 2110) (m 1290) (m 1450) (m 1070) (m 1200) (m 1100) (m 1350) (m 560)
  | .psigmaZSD => byAngle (m 0) (m 0) (m 0) (m 0) (m 0) (m 0) (m 0) (m 0) (m 0)
  | .pzeta => byAngle (m 3000) (m 3000) (m 3000) (m 3000) (m 3000) (m 3000) (m 3000) (m 3000) (m 3000)

/-- `/repo/OpenNTN/models/Urban_NLOS_S_band_UL.json` -/
def fileUrbanNLOSSbandUL : ParamFile
  | .pCL => byAngle (m 34300) (m 30900) (m 29000) (m 27700) (m 26800) (m 26200) (m 25800) (m 25500) (m 25500)
  | .pCPhiNLoS => scalar (m 680)
  | .pCThetaNLoS => scalar (m 594)
  | .pLoSp => byAngle (m 246) (m 386) (m 493) (m 613) (m 726) (m 805) (m 919) (m 968) (m 992)
  | .pcASA => byAngle (m 15070) (m 16200) (m 18140) (m 19960) (m 21530) (m 22440) (m 23590) (m 26570) (m 32700)
  | .pcASD => byAngle (m 80) (m 100) (m 140) (m 230) (m 330) (m 530) (m 1000) (m 1400) (m 6630)
  | .pcDS => byAngle (m 3900) (m 3900) (m 3900) (m 3900) (m 3900) (m 3900) (m 3900) (m 3900) (m 3900)
  | .pcZSA => byAngle (m 1660) (m 4710) (m 7330) (m 9820) (m 11520) (m 11750) (m 10930) (m 12190) (m 16680)
  | .pcorrASAvsDS => byAngle (m 380) (m 360) (m 270) (m 290) (m 210) (m 240) (m 220) (m 240) (m 240)
  | .pcorrASAvsK => byAngle (m 0) (m 0) (m 0) (m 0) (m 0) (m 0) (m 0) (m 0) (m 0)
  | .pcorrASAvsSF => byAngle (m (-50)) (m (-40)) (m (-40)) (m (-40)) (m (-30)) (m (-50)) (m (-20)) (m (-10)) (m 0)
  | .pcorrASDvsASA => byAngle (m 410) (m 400) (m 330) (m 370) (m 230) (m 230) (m 220) (m 230) (m 210)
  | .pcorrASDvsDS => byAngle (m 540) (m 460) (m 560) (m 520) (m 600) (m 590) (m 600) (m 570) (m 640)
  | .pcorrASDvsK => byAngle (m 0) (m 0) (m 0) (m 0) (m 0) (m 0) (m 0) (m 0) (m 0)
  | .pcorrASDvsSF => byAngle (m (-480)) (m (-530)) (m (-520)) (m (-520)) (m (-540)) (m (-510)) (m (-500)) (m (-480)) (m (-430))
  | .pcorrDSvsK => byAngle (m 0) (m 0) (m 0) (m 0) (m 0) (m 0) (m 0) (m 0) (m 0)
  | .pcorrDSvsSF => byAngle (m (-220)) (m (-260)) (m (-210)) (m (-250)) (m (-210)) (m (-190)) (m (-190)) (m (-200)) (m (-200))
  | .pcorrDistASA => byAngle (m 50000) (m 50000) (m 50000) (m 50000) (m 50000) (m 50000) (m 50000) (m 50000) (m 50000)
  | .pcorrDistASD => byAngle (m 50000) (m 50000) (m 50000) (m 50000) (m 50000) (m 50000) (m 50000) (m 50000) (m 50000)
  | .pcorrDistDS => byAngle (m 40000) (m 40000) (m 40000) (m 40000) (m 40000) (m 40000) (m 40000) (m 40000) (m 40000)
  | .pcorrDistK => byAngle (m 1000) (m 1000) (m 1000) (m 1000) (m 1000) (m 1000) (m 1000) (m 1000) (m 1000)
  | .pcorrDistSF => byAngle (m 50000) (m 50000) (m 50000) (m 50000) (m 50000) (m 50000) (m 50000) (m 50000) (m 50000)
  | .pcorrDistZSA => byAngle (m 50000) (m 50000) (m 50000) (m 50000) (m 50000) (m 50000) (m 50000) (m 50000) (m 50000)
  | .pcorrDistZSD => byAngle (m 50000) (m 50000) (m 50000) (m 50000) (m 50000) (m 50000) (m 50000) (m 50000) (m 50000)
  | .pcorrSFvsK => byAngle (m 0) (m 0) (m 0) (m 0) (m 0) (m 0) (m 0) (m 0) (m 0)
  | .pcorrZSAvsASA => byAngle (m 40) (m 130) (m 160) (m 130) (m 130) (m 140) (m (-20)) (m (-200)) (m (-460))
  | .pcorrZSAvsASD => byAngle (m 50) (m 110) (m 130) (m 140) (m (-20)) (m (-110)) (m (-130)) (m (-260)) (m (-220))
  | .pcorrZSAvsDS => byAngle (m 50) (m 90) (m 90) (m 90) (m (-30)) (m (-150)) (m (-130)) (m (-290)) (m (-190))
  | .pcorrZSAvsK => byAngle (m 0) (m 0) (m 0) (m 0) (m 0) (m 0) (m 0) (m 0) (m 0)
  | .pcorrZSAvsSF => byAngle (m (-310)) (m (-330)) (m (-330)) (m (-330)) (m (-380)) (m (-390)) (m (-370)) (m (-370)) (m (-360))
  | .pcorrZSDvsASA => byAngle (m 400) (m 390) (m 340) (m 370) (m 310) (m 280) (m 230) (m 210) (m 280)
  | .pcorrZSDvsASD => byAngle (m 520) (m 480) (m 600) (m 560) (m 620) (m 600) (m 650) (m 590) (m 640)
  | .pcorrZSDvsDS => byAngle (m 690) (m 720) (m 680) (m 680) (m 640) (m 650) (m 640) (m 610) (m 530)
  | .pcorrZSDvsK => byAngle (m 0) (m 0) (m 0) (m 0) (m 0) (m 0) (m 0) (m 0) (m 0)
  | .pcorrZSDvsSF => byAngle (m (-20)) (m 0) (m 10) (m 0) (m 10) (m 10) (m (-20)) (m (-80)) (m (-120))
  | .pcorrZSDvsZSA => byAngle (m (-30)) (m 40) (m 70) (m 70) (m (-10)) (m (-120)) (m (-150)) (m (-340)) (m (-360))
  | .pmuASA => byAngle (m 170) (m 320) (m 520) (m 610) (m 680) (m 640) (m 580) (m 710) (m 490)
  | .pmuASD => byAngle (m (-1550)) (m (-1610)) (m (-1730)) (m (-1950)) (m (-1940)) (m (-1880)) (m (-2100)) (m (-1800)) (m (-1770))
  | .pmuDS => byAngle (m (-7210)) (m (-7630)) (m (-7750)) (m (-7970)) (m (-7990)) (m (-8010)) (m (-8090)) (m (-7970)) (m (-8170))
  | .pmuK => byAngle (m 0) (m 0) (m 0) (m 0) (m 0) (m 0) (m 0) (m 0) (m 0)
  | .pmuXPR => byAngle (m 7000) (m 7000) (m 7000) (m 7000) (m 7000) (m 7000) (m 7000) (m 7000) (m 7000)
  | .pmuZSA => byAngle (m (-970)) (m 490) (m 1030) (m 1120) (m 1300) (m 1320) (m 1350) (m 1310) (m 1500)
  | .pmuZSD => byAngle (m (-2860)) (m (-2640)) (m (-2050)) (m (-2180)) (m (-2240)) (m (-2210)) (m (-2690)) (m (-2810)) (m (-4290))
  | .pnumClusters => byAngle (m 3000) (m 3000) (m 3000) (m 3000) (m 3000) (m 3000) (m 2000) (m 2000) (m 2000)
  | .prTau => byAngle (m 2300) (m 2300) (m 2300) (m 2300) (m 2300) (m 2300) (m 2300) (m 2300) (m 2300)
  | .psigmaASA => byAngle (m 2970) (m 2990) (m 2710) (m 2260) (m 2080) (m 1930) (m 1710) (m 960) (m 1160)
  | .psigmaASD => byAngle (m 870) (m 880) (m 1150) (m 1130) (m 1210) (m 990) (m 1770) (m 1540) (m 1400)
  | .psigmaDS => byAngle (m 1190) (m 980) (m 840) (m 730) (m 730) (m 720) (m 710) (m 780) (m 670)
  | .psigmaK => byAngle (m 0) (m 0) (m 0) (m 0) (m 0) (m 0) (m 0) (m 0) (m 0)
  | .psigmaSF => byAngle (m 6000) (m 6000) (m 6000) (m 6000) (m 6000) (m 6000) (m 6000) (m 6000) (m 6000)
  | .psigmaXPR => byAngle (m 3000) (m 3000) (m 3000) (m 3000) (m 3000) (m 3000) (m 3000) (m 3000) (m 3000)
  | .psigmaZSA => byAngle (m 2350) (m 2110) (m 1290) (m 1450) (m 1070) (m 1200) (m 1100) (m 1350) (m 560)
  | .psigmaZSD => byAngle (m 2770) (m 2790) (m 1530) (m 1670) (m 1950) (m 1870) (m 2720) (m 2980) (m 4370)
  | .pzeta => byAngle (m 3000) (m 3000) (m 3000) (m 3000) (m 3000) (m 3000) (m 3000) (m 3000) (m 3000)

/-- The directory `/repo/OpenNTN/models` seen by `files(models).joinpath(name)` + `open`
(system_level_scenario.py 890-893, 905-908): the scenario parameter files by name, `none` = file not found. -/
def readParamFile (name : String) : Option ParamFile :=
  if name = "Dense_Urban_LOS_Ka_band_DL.json" then some fileDenseUrbanLOSKabandDL
  else if name = "Dense_Urban_LOS_Ka_band_UL.json" then some fileDenseUrbanLOSKabandUL
  else if name = "Dense_Urban_LOS_S_band_DL.json" then some fileDenseUrbanLOSSbandDL
  else if name = "Dense_Urban_LOS_S_band_UL.json" then some fileDenseUrbanLOSSbandUL
  else if name = "Dense_Urban_NLOS_Ka_band_DL.json" then some fileDenseUrbanNLOSKabandDL
  else if name = "Dense_Urban_NLOS_Ka_band_UL.json" then some fileDenseUrbanNLOSKabandUL
  else if name = "Dense_Urban_NLOS_S_band_DL.json" then some fileDenseUrbanNLOSSbandDL
  else if name = "Dense_Urban_NLOS_S_band_UL.json" then some fileDenseUrbanNLOSSbandUL
  else if name = "Sub_Urban_LOS_Ka_band_DL.json" then some fileSubUrbanLOSKabandDL
  else if name = "Sub_Urban_LOS_Ka_band_UL.json" then some fileSubUrbanLOSKabandUL
  else if name = "Sub_Urban_LOS_S_band_DL.json" then some fileSubUrbanLOSSbandDL
  else if name = "Sub_Urban_LOS_S_band_UL.json" then some fileSubUrbanLOSSbandUL
  else if name = "Sub_Urban_NLOS_Ka_band_DL.json" then some fileSubUrbanNLOSKabandDL
  else if name = "Sub_Urban_NLOS_Ka_band_UL.json" then some fileSubUrbanNLOSKabandUL
  else if name = "Sub_Urban_NLOS_S_band_DL.json" then some fileSubUrbanNLOSSbandDL
  else if name = "Sub_Urban_NLOS_S_band_UL.json" then some fileSubUrbanNLOSSbandUL
  else if name = "Urban_LOS_Ka_band_DL.json" then some fileUrbanLOSKabandDL
  else if name = "Urban_LOS_Ka_band_UL.json" then some fileUrbanLOSKabandUL
  else if name = "Urban_LOS_S_band_DL.json" then some fileUrbanLOSSbandDL
  else if name = "Urban_LOS_S_band_UL.json" then some fileUrbanLOSSbandUL
  else if name = "Urban_NLOS_Ka_band_DL.json" then some fileUrbanNLOSKabandDL
  else if name = "Urban_NLOS_Ka_band_UL.json" then some fileUrbanNLOSKabandUL
  else if name = "Urban_NLOS_S_band_DL.json" then some fileUrbanNLOSSbandDL
  else if name = "Urban_NLOS_S_band_UL.json" then some fileUrbanNLOSSbandUL
  else none

end OpenNTN
