import Verif.Model.Cir

/-
Model of `SystemLevelChannel.show_topology`, system_level_channel.py 271-397: what is drawn where. Colours, markers and the layout of the figure are
left out.
-/
namespace OpenNTN

open Classical

/-- A line drawn for an axis of a local coordinate system, lines 322-330. `none` stands for coordinates that are not numbers. -/
structure Arrow where
  colour : String
  start : Fin 3 → ℝ
  stop : Option (Fin 3 → ℝ)

/-- The figure. -/
structure Figure where
  /-- label of the group and place of every scattered point, lines 372 and 381-384 -/
  points : List (String × (Fin 3 → ℝ))
  /-- place and arrows of every BS with its index, lines 375-377 -/
  bsNodes : List (ℕ × (Fin 3 → ℝ) × List Arrow)
  /-- the same for the UTs, lines 386-388 -/
  utNodes : List (ℕ × (Fin 3 → ℝ) × List Arrow)
  xLabel : String
  yLabel : String
  zLabel : String

/-- `arrow_ratio_size/np.sqrt(np.sum(np.square(v/delta)))` times `v`, lines 305, 306, 311, 312, 317, 319, in numpy's arithmetic: `x/0` is infinite,
`0/0` and its consequences are not numbers, and a finite number divided by infinity is zero. `v` is not zero. -/
noncomputable def arrowVector (v delta : Fin 3 → ℝ) : Option (Fin 3 → ℝ) :=
  if ∃ i, delta i = 0 ∧ v i = 0 then none
  else if ∃ i, delta i = 0 then some 0
  else
    let scale := 0.1 / Real.sqrt (∑ i, (v i / delta i) ^ 2)
    some fun i => v i * scale

/-- `draw_coordinate_system`, lines 289-330. -/
noncomputable def coordinateSystem (loc ort delta : Fin 3 → ℝ) : List Arrow :=
  let a := ort 0
  let b := ort 1
  let c := ort 2
  let x : Fin 3 → ℝ := ![Real.cos a * Real.cos b, Real.sin a * Real.cos b, -Real.sin b]
  let y : Fin 3 → ℝ := ![Real.cos a * Real.sin b * Real.sin c - Real.sin a * Real.cos c,
    Real.sin a * Real.sin b * Real.sin c + Real.cos a * Real.cos c, Real.cos b * Real.sin c]
  let z : Fin 3 → ℝ := ![Real.cos a * Real.sin b * Real.cos c + Real.sin a * Real.sin c,
    Real.sin a * Real.sin b * Real.cos c - Real.cos a * Real.sin c, Real.cos b * Real.cos c]
  [⟨"r", loc, (arrowVector x delta).map (loc + ·)⟩, ⟨"g", loc, (arrowVector y delta).map (loc + ·)⟩,
    ⟨"b", loc, (arrowVector z delta).map (loc + ·)⟩]

/-- `np.max(l) - np.min(l)`, lines 357-362; numpy raises if there are no entries. -/
noncomputable def spread (l : List ℝ) : Except Err ℝ :=
  match l.max?, l.min? with
  | some hi, some lo => .ok (hi - lo)
  | _, _ => .error .invalidArgument

/-- Lines 343-352: places in metres, or in kilometres if a coordinate exceeds 10 km, and the unit written at the axes. -/
noncomputable def scaledLoc {n : ℕ} (loc : Fin n → Vec3) : (Fin n → Fin 3 → ℝ) × String :=
  if ∃ k i, 10000 < (loc k).coords i then (fun k i => (loc k).coords i / 1000, "[km]") else (fun k => (loc k).coords, "[m]")

variable {B N U : ℕ}

/-- `show_topology`, system_level_channel.py 332-395. -/
noncomputable def showTopology (s : TopoState B N U) (bsIndex : Fin N) (batch : Fin B) : Except Err Figure :=
  match s.inState, s.los, s.utLoc, s.bsLoc, s.utOri, s.bsOri with
  | some inState, some los, some utLoc, some bsLoc, some utOri, some bsOri => do
    let indoor := inState batch
    let los := los batch bsIndex
    let losIndices := (List.finRange U).filter fun u => los u
    let nlosIndices := (List.finRange U).filter fun u => !indoor u && !los u
    let ut := scaledLoc (utLoc batch)
    let bs := scaledLoc (bsLoc batch)
    let coordinates (i : Fin 3) : List ℝ := (List.finRange U).map (fun u => ut.1 u i) ++ (List.finRange N).map fun n => bs.1 n i
    let dx ← spread (coordinates 0)
    let dy ← spread (coordinates 1)
    let dz ← spread (coordinates 2)
    let delta : Fin 3 → ℝ := ![dx, dy, dz]
    .ok {
      points := (List.finRange N).map (fun n => ("BS", bs.1 n)) ++ losIndices.map (fun u => ("UT LoS", ut.1 u)) ++
        nlosIndices.map fun u => ("UT NLoS", ut.1 u)
      bsNodes := (List.finRange N).map fun n => (n.val, bs.1 n, coordinateSystem (bs.1 n) (bsOri batch n).coords delta)
      utNodes := (List.finRange U).map fun u => (u.val, ut.1 u, coordinateSystem (ut.1 u) (utOri batch u).coords delta)
      xLabel := "x " ++ ut.2
      yLabel := "y " ++ ut.2
      zLabel := "z " ++ bs.2 }
  | _, _, _, _, _, _ => .error .attributeError

end OpenNTN
