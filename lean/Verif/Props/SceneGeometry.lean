import Verif.Props.Getters
import Verif.Props.TopoGen

/-
C176, C177, C178: distances and directions of a scene against each other.
-/
namespace OpenNTN

open Classical Spec

variable {B U : ℕ} [NeZero B] {cls : ScenarioClass} {sa : ScenarioArgs} {c : Config} {log : List (TopoCall B 1 U)} {s : TopoState B 1 U}

/-- Distance of two points. -/
noncomputable def Spec.apart (p q : ℝ × ℝ × ℝ) : ℝ := Real.sqrt ((p.1 - q.1) ^ 2 + (p.2.1 - q.2.1) ^ 2 + (p.2.2 - q.2.2) ^ 2)

/-- From `p` the point `q` is seen at the elevation `el`, in degrees. -/
def Spec.SeenAt (el : ℝ) (p q : ℝ × ℝ × ℝ) : Prop := q.2.2 - p.2.2 = Real.sin (el * Real.pi / 180) * apart p q

/-- What a scenario holds of the scene in force. -/
theorem scene_reached (h : mkScenario cls sa = .ok c) (r : TopoReach c log s) (hr : Relocated log) :
    ∃ ut bs, s.getUtLoc = some ut ∧ s.getBsLoc = some bs ∧ s.getDistance3d = .ok (fun _ _ _ => distance3d sa.elevationAngle (bs 0 0).z) ∧
      s.getLosZod = .ok (fun b n u => (losAngles (ut b u) (bs b n)).zod) := by
  obtain ⟨e, he, ht⟩ := hr
  rcases fresh_invariant h rfl r with ⟨hh, -⟩ | ⟨_, ev, _, P, Q, ind, -, -, -, -, q5, q6, q7, q8⟩
  · exact absurd (fun hh => by rw [ht] at hh; cases hh) (hh e he)
  obtain ⟨d3, h1, h2⟩ := q8.distance3d
  refine ⟨P, Q, q5, q6, ?_, ?_⟩
  · rw [TopoState.getDistance3d, h1, readAttr]
    congr 1
    funext b n u
    rw [h2, (mkScenario_built h).el_eq, Fin.fin_one_eq_zero n]
  · rw [TopoState.getLosZod, q8.angles]
    rfl

theorem sin_el {el : ℝ} (h1 : 10 ≤ el) (h2 : el ≤ 90) :
    0 < Real.sin (el * Real.pi / 180) ∧ (Real.sin (el * Real.pi / 180) = 1 ↔ el = 90) := by
  have hp := Real.pi_pos
  refine ⟨Real.sin_pos_of_pos_of_lt_pi (by positivity) (by nlinarith), fun hs => ?_, fun h => ?_⟩
  · by_contra hne
    have hlt : el < 90 := lt_of_le_of_ne h2 hne
    have := Real.sin_lt_sin_of_lt_of_le_pi_div_two (x := el * Real.pi / 180) (y := Real.pi / 2) (by nlinarith) le_rfl (by nlinarith)
    rw [hs, Real.sin_pi_div_two] at this
    exact lt_irrefl _ this
  · rw [h, show (90 : ℝ) * Real.pi / 180 = Real.pi / 2 by ring, Real.sin_pi_div_two]

theorem apart_sq (p q : Vec3) : apart p.point q.point ^ 2 = (p.x - q.x) ^ 2 + (p.y - q.y) ^ 2 + (p.z - q.z) ^ 2 := by
  rw [apart, Real.sq_sqrt (by positivity)]; rfl

/-! ### C176 -/

/-- C176. When a UT sees the satellite at the elevation of the scenario, the slant range is the distance of the two. -/
def C176_statement : Prop :=
  ∀ (B U : ℕ) [NeZero B] (cls : ScenarioClass) (sa : ScenarioArgs) (c : Config), mkScenario cls sa = .ok c →
    ∀ (log : List (TopoCall B 1 U)) (s : TopoState B 1 U), TopoReach c log s → Relocated log →
      ∀ ut bs d3, s.getUtLoc = some ut → s.getBsLoc = some bs → s.getDistance3d = .ok d3 → ∀ b u, 0 < (bs b 0).z → (bs b 0).z = (bs 0 0).z →
        SeenAt sa.elevationAngle (ut b u).point (bs b 0).point → d3 b 0 u = apart (ut b u).point (bs b 0).point

/-- C176, what holds. The slant range is that of a sphere on which the UT is at height zero, while the positions are in a plane. The difference of
distance and slant range is given by the horizontal distance; for a UT at height zero the slant range is never larger, and
the two agree for a satellite in the zenith only. -/
theorem C176_slant_partial (h : mkScenario cls sa = .ok c) (r : TopoReach c log s) (hr : Relocated log) {ut : PerUt B U Vec3} {bs : PerBs B 1 Vec3}
    {d3 : PerLink B 1 U ℝ} (hut : s.getUtLoc = some ut) (hbs : s.getBsLoc = some bs) (hd : s.getDistance3d = .ok d3) (b : Fin B) (u : Fin U)
    (h0 : 0 < (bs b 0).z) (hb : (bs b 0).z = (bs 0 0).z) (hs : SeenAt sa.elevationAngle (ut b u).point (bs b 0).point) :
    let R : ℝ := 6371000
    let D := apart (ut b u).point (bs b 0).point
    (D - d3 b 0 u) * (D + d3 b 0 u + 2 * R * Real.sin (sa.elevationAngle * Real.pi / 180)) =
      ((ut b u).x - (bs b 0).x) ^ 2 + ((ut b u).y - (bs b 0).y) ^ 2 - (ut b u).z * (2 * R + 2 * (bs b 0).z - (ut b u).z) ∧
    ((ut b u).z = 0 → d3 b 0 u ≤ D ∧ (d3 b 0 u = D ↔ sa.elevationAngle = 90)) := by
  intro R D
  obtain ⟨P, Q, e1, e2, e3, -⟩ := scene_reached h r hr
  obtain rfl : P = ut := Option.some.inj (e1.symm.trans hut)
  obtain rfl : Q = bs := Option.some.inj (e2.symm.trans hbs)
  obtain rfl := Except.ok.inj (e3.symm.trans hd)
  have bd := mkScenario_built h
  obtain ⟨g1, g2, -⟩ := C21_slant_range bd.el_lo bd.el_hi (hb ▸ h0)
  obtain ⟨s0, s1⟩ := sin_el bd.el_lo bd.el_hi
  dsimp only
  rw [← hb] at g1 g2 ⊢
  set d := distance3d sa.elevationAngle (Q b 0).z
  set v := Real.sin (sa.elevationAngle * Real.pi / 180)
  have hD := apart_sq (P b u) (Q b 0)
  have hD0 : 0 ≤ D := Real.sqrt_nonneg _
  change D ^ 2 = _ at hD
  change (Q b 0).z - (P b u).z = v * D at hs
  have hR : (0 : ℝ) < R := by norm_num [R]
  have key : (D - d) * (D + d + 2 * R * v) =
      ((P b u).x - (Q b 0).x) ^ 2 + ((P b u).y - (Q b 0).y) ^ 2 - (P b u).z * (2 * R + 2 * (Q b 0).z - (P b u).z) := by
    simp only [R] at g2 ⊢
    linear_combination hD + g2 - 2 * 6371000 * hs
  refine ⟨key, fun hz => ?_⟩
  rw [hz] at key hs hD
  have hpos : 0 < D + d + 2 * R * v := by positivity
  refine ⟨?_, fun e => ?_, fun e => ?_⟩
  · by_contra hn
    push Not at hn
    nlinarith [mul_pos (sub_pos.2 hn) hpos, sq_nonneg ((P b u).x - (Q b 0).x), sq_nonneg ((P b u).y - (Q b 0).y)]
  · refine s1.1 ?_
    have hH : 0 < D := by
      by_contra hn
      have : D = 0 := le_antisymm (not_lt.1 hn) hD0
      rw [this] at hs; linarith
    rw [e, sub_self, zero_mul] at key
    have : D ^ 2 = ((Q b 0).z) ^ 2 := by linarith
    have : D = (Q b 0).z := by nlinarith
    nlinarith
  · have hv := s1.2 e
    change v = 1 at hv
    rw [hv] at hs
    have : D = (Q b 0).z := by linarith
    have h3 : (D - d) * (D + d + 2 * R * v) = 0 := by rw [key]; nlinarith
    rcases mul_eq_zero.1 h3 with h3 | h3
    · linarith
    · exact absurd h3 hpos.ne'

/-- A UT on the ground that sees a satellite at 600 km at 30 degrees. -/
noncomputable def exSlanted : TopoArgs 1 1 1 := { exTopo 1 1 1 with utLoc := some fun _ _ => ⟨600000 * Real.sqrt 3, 0, 0⟩ }

theorem exSlanted_apart : apart ((⟨600000 * Real.sqrt 3, 0, 0⟩ : Vec3).point) ((⟨0, 0, 600000⟩ : Vec3).point) = 1200000 := by
  rw [apart, Real.sqrt_eq_iff_mul_self_eq (by positivity) (by norm_num)]
  have := Real.sq_sqrt (show (0 : ℝ) ≤ 3 by norm_num)
  simp only [Vec3.point]
  nlinarith

theorem exSlanted_seen : SeenAt 30 ((⟨600000 * Real.sqrt 3, 0, 0⟩ : Vec3).point) ((⟨0, 0, 600000⟩ : Vec3).point) := by
  rw [SeenAt, exSlanted_apart, show (30 : ℝ) * Real.pi / 180 = Real.pi / 6 by ring, Real.sin_pi_div_six]
  simp only [Vec3.point]
  norm_num

theorem exSlanted_reached : ∃ (c : Config) (log : List (TopoCall 1 1 1)) (s : TopoState 1 1 1), mkScenario .urban (exArgs 2000000000 "uplink" 30) = .ok c ∧
    TopoReach c log s ∧ Relocated log ∧ s.getUtLoc = some (fun _ _ => ⟨600000 * Real.sqrt 3, 0, 0⟩) ∧ s.getBsLoc = some (fun _ _ => ⟨0, 0, 600000⟩) := by
  obtain ⟨c, hc⟩ : ∃ c, mkScenario .urban (exArgs 2000000000 "uplink" 30) = .ok c := by
    simpa using exArgs_ok .urban true false 30 (by norm_num) (by norm_num)
  have ht := complete_call hc exSlanted (exDraws 1 1 1) (exTopo_atmosphere 1 1 1) rfl rfl
  have r := TopoReach.call exSlanted (exDraws 1 1 1) (TopoReach.init (c := c))
  have hr : Relocated [(exSlanted, exDraws 1 1 1, (setTopology c (TopoState.init c) exSlanted (exDraws 1 1 1)).2)] :=
    ⟨_, List.mem_singleton_self _, ht⟩
  obtain ⟨-, -, -, -, -, p1, p2, -⟩ := C127_attributes_partial hc r hr
  have ha : TopoCall.accepted (exSlanted, exDraws 1 1 1, (setTopology c (TopoState.init c) exSlanted (exDraws 1 1 1)).2) := by
    intro e; dsimp only at e; rw [ht] at e; cases e
  refine ⟨c, _, _, hc, r, hr, ?_, ?_⟩
  · rw [p1, latest, if_pos ha]; rfl
  · rw [p2, latest, if_pos ha]; rfl

/-- The code violates C176. -/
theorem C176_violated : ¬ C176_statement := by
  intro H
  obtain ⟨c, log, s, hc, r, hr, h1, h2⟩ := exSlanted_reached
  obtain ⟨_, _, -, -, h3, -⟩ := scene_reached hc r hr
  have e := H 1 1 _ _ c hc log s r hr _ _ _ h1 h2 h3 0 0 (by norm_num) rfl exSlanted_seen
  have := ((C176_slant_partial hc r hr h1 h2 h3 0 0 (by norm_num) rfl exSlanted_seen).2 rfl).2.1 e
  norm_num [exArgs] at this

/-! ### C177 -/

/-- C177. UTs see the satellite at the elevation of the scenario. -/
def C177_statement : Prop :=
  ∀ (B U : ℕ) [NeZero B] (cls : ScenarioClass) (sa : ScenarioArgs) (c : Config), mkScenario cls sa = .ok c →
    ∀ (log : List (TopoCall B 1 U)) (s : TopoState B 1 U), TopoReach c log s → Relocated log →
      ∀ ut bs, s.getUtLoc = some ut → s.getBsLoc = some bs → ∀ b u, SeenAt sa.elevationAngle (ut b u).point (bs b 0).point

theorem nadir_tan {ut bs : Vec3} (hz : ut.z < bs.z) :
    Real.tan ((180 - (losAngles ut bs).zod) * Real.pi / 180) * (bs.z - ut.z) = distance2d ut bs := by
  obtain ⟨z1, z2⟩ := atan2_norm (distance2d ut bs) (ut.z - bs.z)
  have hc : Real.cos ((losAngles ut bs).zod * Real.pi / 180) = Real.cos (atan2 (distance2d ut bs) (ut.z - bs.z)) := by
    simp only [losAngles, wrap_cos]
  have hs : Real.sin ((losAngles ut bs).zod * Real.pi / 180) = Real.sin (atan2 (distance2d ut bs) (ut.z - bs.z)) := by
    simp only [losAngles, wrap_sin]
  rw [← hc] at z1
  rw [← hs] at z2
  set r := Real.sqrt ((ut.z - bs.z) ^ 2 + distance2d ut bs ^ 2)
  set cz := Real.cos ((losAngles ut bs).zod * Real.pi / 180)
  have hne : cz ≠ 0 := by
    intro e; rw [e, mul_zero] at z1; linarith
  rw [show (180 - (losAngles ut bs).zod) * Real.pi / 180 = Real.pi - (losAngles ut bs).zod * Real.pi / 180 by ring, Real.tan_eq_sin_div_cos,
    Real.sin_pi_sub, Real.cos_pi_sub, ← z2, show bs.z - ut.z = -(r * cz) by linarith]
  rw [neg_mul_eq_neg_mul, div_mul_eq_mul_div, div_eq_iff (neg_ne_zero.2 hne)]
  ring

/-- C177, what holds: when the scene was generated for the elevation of the scenario, the tangent of the angle between nadir and the reported LoS
direction, times the difference in height, is that of this elevation (with the altitude) up to the size of the cell. Nothing checks that the elevations agree. -/
theorem C177_elevation_partial (h : mkScenario cls sa = .ok c) (r : TopoReach c log s) (hr : Relocated log) {scenario : String} {a : GenArgs}
    {w : DropDraws B U} {p : GenParams} {t : GenTopology B U} (hw : UnitDraws w) (hp : setScenarioParameters scenario a = .ok p)
    (ht : genSingleSector scenario a w = .ok t) (hi : 0 ≤ p.isd) (hH : 0 ≤ p.bsHeight) (hel : p.elevation = sa.elevationAngle)
    (hut : s.getUtLoc = some t.utLoc) (hbs : s.getBsLoc = some t.bsLoc) {zod : PerLink B 1 U ℝ} (hz : s.getLosZod = .ok zod) (b : Fin B) (u : Fin U)
    (hlow : (t.utLoc b u).z < p.bsHeight) :
    |Real.tan ((180 - zod b 0 u) * Real.pi / 180) * (p.bsHeight - (t.utLoc b u).z) -
      p.bsHeight * Real.cot (sa.elevationAngle * Real.pi / 180)| ≤ p.isd / Real.sqrt 2 := by
  have bd := mkScenario_built h
  obtain ⟨P, Q, e1, e2, -, e4⟩ := scene_reached h r hr
  obtain rfl : P = t.utLoc := Option.some.inj (e1.symm.trans hut)
  obtain rfl : Q = t.bsLoc := Option.some.inj (e2.symm.trans hbs)
  obtain rfl := Except.ok.inj (e4.symm.trans hz)
  obtain ⟨p', xy, g1, g2, g3, -, g4, -⟩ := genSingleSector_eq ht
  rw [hp] at g1; cases g1
  obtain ⟨x, y, loc, k1, k2, k3⟩ := C68_elevation (el := p.elevation) w hH (by linarith [bd.el_lo]) (by linarith [bd.el_hi]) hi hw.xBase hw.xDis hw.yDis
  rw [g2] at k1; cases k1
  have hb : t.bsLoc b 0 = ⟨0, 0, p.bsHeight⟩ := by rw [g3]
  have hn := nadir_tan (ut := t.utLoc b u) (bs := t.bsLoc b 0) (by rw [hb]; exact hlow)
  have hd : distance2d (t.utLoc b u) (t.bsLoc b 0) = Real.sqrt ((xy b u).1 ^ 2 + (xy b u).2 ^ 2) := by
    rw [hb, g4, distance2d]; simp
  rw [hd] at hn
  dsimp only
  rw [show p.bsHeight - (t.utLoc b u).z = (t.bsLoc b 0).z - (t.utLoc b u).z by rw [hb], hn]
  have hs := (sin_el bd.el_lo bd.el_hi).1
  have hrad : rad p.elevation = sa.elevationAngle * Real.pi / 180 := by rw [hel, rad]
  rw [hrad] at k2
  have : p.bsHeight * Real.cot (sa.elevationAngle * Real.pi / 180) = Real.sqrt (x ^ 2 + y ^ 2) := by
    rw [Real.cot_eq_cos_div_sin, ← mul_div_assoc, ← k2]
    field_simp
  rw [this]
  exact (k3 b u).2.2

/-- The code violates C177: a scenario for 50 degrees accepts UTs below the satellite. -/
theorem C177_violated : ¬ C177_statement := by
  intro H
  obtain ⟨c, hc⟩ := exConfig
  have ht := exTopo_single hc 1 1
  have r := TopoReach.call (exTopo 1 1 1) (exDraws 1 1 1) (TopoReach.init (c := c))
  have hr : Relocated [(exTopo 1 1 1, exDraws 1 1 1, (setTopology c (TopoState.init c) (exTopo 1 1 1) (exDraws 1 1 1)).2)] :=
    ⟨_, List.mem_singleton_self _, ht⟩
  obtain ⟨-, -, -, -, -, p1, p2, -⟩ := C127_attributes_partial hc r hr
  have ha : TopoCall.accepted (exTopo 1 1 1, exDraws 1 1 1, (setTopology c (TopoState.init c) (exTopo 1 1 1) (exDraws 1 1 1)).2) := by
    intro e; dsimp only at e; rw [ht] at e; cases e
  rw [latest, if_pos ha] at p1 p2
  have := H 1 1 _ _ c hc _ _ r hr _ _ p1 p2 0 0
  rw [SeenAt, apart] at this
  simp only [Vec3.point, exArgs] at this
  have e : Real.sqrt (((0 : ℝ) - 0) ^ 2 + (0 - 0) ^ 2 + (1.5 - 600000) ^ 2) = 600000 - 1.5 := by
    rw [show ((0 : ℝ) - 0) ^ 2 + (0 - 0) ^ 2 + (1.5 - 600000) ^ 2 = (600000 - 1.5) ^ 2 by norm_num, Real.sqrt_sq (by norm_num)]
  rw [e] at this
  have h1 : Real.sin (50 * Real.pi / 180) = 1 := by
    have : (1 : ℝ) * (600000 - 1.5) = Real.sin (50 * Real.pi / 180) * (600000 - 1.5) := by rw [one_mul]; exact this
    exact (mul_right_cancel₀ (by norm_num) this).symm
  have := (sin_el (by norm_num) (by norm_num)).2.1 h1
  norm_num at this

/-! ### C178 -/

/-- C178. Slant range and direction at the satellite belong to the same triangle: for a UT on the ground that sees the satellite at the elevation of the
scenario, the angle at the satellite is the one of the triangle of UT, satellite and centre of the Earth, by the law of sines. -/
def C178_statement : Prop :=
  ∀ (B U : ℕ) [NeZero B] (cls : ScenarioClass) (sa : ScenarioArgs) (c : Config), mkScenario cls sa = .ok c →
    ∀ (log : List (TopoCall B 1 U)) (s : TopoState B 1 U), TopoReach c log s → Relocated log →
      ∀ ut bs zod, s.getUtLoc = some ut → s.getBsLoc = some bs → s.getLosZod = .ok zod → ∀ b u, 0 < (bs b 0).z → (ut b u).z = 0 →
        SeenAt sa.elevationAngle (ut b u).point (bs b 0).point →
        (6371000 + (bs b 0).z) * Real.sin ((180 - zod b 0 u) * Real.pi / 180) = 6371000 * Real.cos (sa.elevationAngle * Real.pi / 180)

/-- C178, what holds: the angle between nadir and the direction of the UT is 90 degrees less the elevation, as in a plane. In the triangle of the slant
range it is smaller, unless the satellite is in the zenith. -/
theorem C178_nadir_partial (h : mkScenario cls sa = .ok c) (r : TopoReach c log s) (hr : Relocated log) {ut : PerUt B U Vec3} {bs : PerBs B 1 Vec3}
    {zod : PerLink B 1 U ℝ} (hut : s.getUtLoc = some ut) (hbs : s.getBsLoc = some bs) (hd : s.getLosZod = .ok zod) (b : Fin B) (u : Fin U)
    (h0 : (ut b u).z < (bs b 0).z) (hs : SeenAt sa.elevationAngle (ut b u).point (bs b 0).point) :
    Real.sin ((180 - zod b 0 u) * Real.pi / 180) = Real.cos (sa.elevationAngle * Real.pi / 180) ∧
    Real.cos ((180 - zod b 0 u) * Real.pi / 180) = Real.sin (sa.elevationAngle * Real.pi / 180) ∧
    ∀ η, 0 ≤ η → η ≤ 90 → (6371000 + (bs b 0).z) * Real.sin (η * Real.pi / 180) = 6371000 * Real.cos (sa.elevationAngle * Real.pi / 180) →
      0 < (bs b 0).z → η ≤ 90 - sa.elevationAngle ∧ (η = 90 - sa.elevationAngle ↔ sa.elevationAngle = 90) := by
  have bd := mkScenario_built h
  obtain ⟨P, Q, e1, e2, -, e4⟩ := scene_reached h r hr
  obtain rfl : P = ut := Option.some.inj (e1.symm.trans hut)
  obtain rfl : Q = bs := Option.some.inj (e2.symm.trans hbs)
  obtain rfl := Except.ok.inj (e4.symm.trans hd)
  obtain ⟨z1, z2⟩ := atan2_norm (distance2d (P b u) (Q b 0)) ((P b u).z - (Q b 0).z)
  have hd2 : distance2d (P b u) (Q b 0) ^ 2 = ((P b u).x - (Q b 0).x) ^ 2 + ((P b u).y - (Q b 0).y) ^ 2 := Real.sq_sqrt (by positivity)
  have hr' : Real.sqrt (((P b u).z - (Q b 0).z) ^ 2 + distance2d (P b u) (Q b 0) ^ 2) = apart (P b u).point (Q b 0).point := by
    rw [hd2, apart]; congr 1; simp only [Vec3.point]; ring
  rw [hr'] at z1 z2
  obtain ⟨s0, s1⟩ := sin_el bd.el_lo bd.el_hi
  change (Q b 0).z - (P b u).z = _ at hs
  set D := apart (P b u).point (Q b 0).point
  have hD : 0 < D := by
    by_contra hn
    have : D = 0 := le_antisymm (not_lt.1 hn) (Real.sqrt_nonneg _)
    rw [this, mul_zero] at hs; linarith
  dsimp only
  have hp := Real.pi_pos
  have hc : Real.cos ((180 - (losAngles (P b u) (Q b 0)).zod) * Real.pi / 180) = Real.sin (sa.elevationAngle * Real.pi / 180) := by
    rw [show (180 - (losAngles (P b u) (Q b 0)).zod) * Real.pi / 180 = Real.pi - (losAngles (P b u) (Q b 0)).zod * Real.pi / 180 by ring,
      Real.cos_pi_sub]
    simp only [losAngles, wrap_cos]
    apply mul_left_cancel₀ hD.ne'
    linarith
  have hcos : 0 ≤ Real.cos (sa.elevationAngle * Real.pi / 180) := Real.cos_nonneg_of_mem_Icc ⟨by nlinarith [bd.el_lo], by nlinarith [bd.el_hi]⟩
  have hs' : Real.sin ((180 - (losAngles (P b u) (Q b 0)).zod) * Real.pi / 180) = Real.cos (sa.elevationAngle * Real.pi / 180) := by
    have h1 : 0 ≤ Real.sin ((180 - (losAngles (P b u) (Q b 0)).zod) * Real.pi / 180) := by
      rw [show (180 - (losAngles (P b u) (Q b 0)).zod) * Real.pi / 180 = Real.pi - (losAngles (P b u) (Q b 0)).zod * Real.pi / 180 by ring,
        Real.sin_pi_sub]
      simp only [losAngles, wrap_sin]
      have : 0 ≤ D * Real.sin (atan2 (distance2d (P b u) (Q b 0)) ((P b u).z - (Q b 0).z)) := by rw [z2]; exact Real.sqrt_nonneg _
      exact nonneg_of_mul_nonneg_right this hD
    have h2 := Real.sin_sq_add_cos_sq ((180 - (losAngles (P b u) (Q b 0)).zod) * Real.pi / 180)
    have h3 := Real.sin_sq_add_cos_sq (sa.elevationAngle * Real.pi / 180)
    rw [hc] at h2
    exact (sq_eq_sq₀ h1 hcos).1 (by linarith)
  refine ⟨hs', hc, fun η g0 g1 g2 g3 => ?_⟩
  have hflat : Real.sin ((90 - sa.elevationAngle) * Real.pi / 180) = Real.cos (sa.elevationAngle * Real.pi / 180) := by
    rw [show (90 - sa.elevationAngle) * Real.pi / 180 = Real.pi / 2 - sa.elevationAngle * Real.pi / 180 by ring, Real.sin_pi_div_two_sub]
  have hη : 0 ≤ Real.sin (η * Real.pi / 180) := Real.sin_nonneg_of_nonneg_of_le_pi (by positivity) (by nlinarith)
  have hle : Real.sin (η * Real.pi / 180) ≤ Real.sin ((90 - sa.elevationAngle) * Real.pi / 180) := by
    rw [hflat]
    nlinarith [mul_nonneg g3.le hη]
  refine ⟨?_, fun e => ?_, fun e => ?_⟩
  · by_contra hn
    push Not at hn
    have := Real.sin_lt_sin_of_lt_of_le_pi_div_two (x := (90 - sa.elevationAngle) * Real.pi / 180) (y := η * Real.pi / 180) (by nlinarith [bd.el_hi])
      (by nlinarith) (by nlinarith)
    linarith
  · rw [e, hflat] at g2
    have h0 : (Q b 0).z * Real.cos (sa.elevationAngle * Real.pi / 180) = 0 := by linarith
    have h1 : Real.cos (sa.elevationAngle * Real.pi / 180) = 0 := (mul_eq_zero.1 h0).resolve_left g3.ne'
    have h3 := Real.sin_sq_add_cos_sq (sa.elevationAngle * Real.pi / 180)
    rw [h1] at h3
    refine s1.1 ?_
    nlinarith
  · have h1 : Real.cos (sa.elevationAngle * Real.pi / 180) = 0 := by
      rw [e, show (90 : ℝ) * Real.pi / 180 = Real.pi / 2 by ring, Real.cos_pi_div_two]
    rw [h1, mul_zero] at g2
    have h2 : Real.sin (η * Real.pi / 180) = 0 := (mul_eq_zero.1 g2).resolve_left (by positivity)
    rw [e, sub_self]
    by_contra hne
    have hpos : 0 < η := lt_of_le_of_ne g0 (Ne.symm hne)
    exact (Real.sin_pos_of_pos_of_lt_pi (by positivity) (by nlinarith)).ne' h2

/-- The code violates C178. -/
theorem C178_violated : ¬ C178_statement := by
  intro H
  obtain ⟨c, log, s, hc, r, hr, h1, h2⟩ := exSlanted_reached
  obtain ⟨_, _, -, -, -, h3⟩ := scene_reached hc r hr
  have e := H 1 1 _ _ c hc log s r hr _ _ _ h1 h2 h3 0 0 (by norm_num) rfl exSlanted_seen
  obtain ⟨e1, -, -⟩ := C178_nadir_partial hc r hr h1 h2 h3 0 0 (by norm_num) exSlanted_seen
  rw [e1] at e
  simp only [exArgs] at e
  rw [show (30 : ℝ) * Real.pi / 180 = Real.pi / 6 by ring, Real.cos_pi_div_six] at e
  have := Real.sqrt_pos.2 (show (0 : ℝ) < 3 by norm_num)
  nlinarith

/-- The hypotheses of the theorems about C176 and C178 are met by a UT that sees the satellite at 30 degrees. -/
example : ∃ (c : Config) (log : List (TopoCall 1 1 1)) (s : TopoState 1 1 1) (ut : PerUt 1 1 Vec3) (bs : PerBs 1 1 Vec3),
    mkScenario .urban (exArgs 2000000000 "uplink" 30) = .ok c ∧ TopoReach c log s ∧ Relocated log ∧ s.getUtLoc = some ut ∧ s.getBsLoc = some bs ∧
    0 < (bs 0 0).z ∧ (ut 0 0).z = 0 ∧ SeenAt 30 (ut 0 0).point (bs 0 0).point := by
  obtain ⟨c, log, s, hc, r, hr, h1, h2⟩ := exSlanted_reached
  exact ⟨c, log, s, _, _, hc, r, hr, h1, h2, by norm_num, rfl, exSlanted_seen⟩

/-- The hypotheses of the theorem about C177 are met by a scene generated for 80 degrees, handed to a scenario for 80 degrees. -/
example : ∃ (c : Config) (log : List (TopoCall 2 1 3)) (s : TopoState 2 1 3) (p : GenParams) (t : GenTopology 2 3) (zod : PerLink 2 1 3 ℝ),
    mkScenario .urban (exArgs 2000000000 "uplink" 80) = .ok c ∧ TopoReach c log s ∧ Relocated log ∧ UnitDraws (exDrop 2 3) ∧
    setScenarioParameters "urb" {} = .ok p ∧ genSingleSector "urb" {} (exDrop 2 3) = .ok t ∧ 0 ≤ p.isd ∧ 0 ≤ p.bsHeight ∧ p.elevation = 80 ∧
    s.getUtLoc = some t.utLoc ∧ s.getBsLoc = some t.bsLoc ∧ s.getLosZod = .ok zod ∧ ∀ b u, (t.utLoc b u).z < p.bsHeight := by
  have hp : setScenarioParameters "urb" {} = .ok ⟨500, 600000, 80, 1.5, 1.5, 0, 0, 0⟩ := by simp [setScenarioParameters, scenarioDefaults]
  have hw : UnitDraws (exDrop 2 3) := by constructor <;> simp [exDrop] <;> norm_num
  obtain ⟨c, hc⟩ : ∃ c, mkScenario .urban (exArgs 2000000000 "uplink" 80) = .ok c := by
    simpa using exArgs_ok .urban true false 80 (by norm_num) (by norm_num)
  obtain ⟨t, ht, h1, h2, -⟩ := C70_accepted hc hp (exDrop 2 3) hw (by norm_num) (by norm_num) (by norm_num) le_rfl le_rfl le_rfl
  have hset := complete_call hc (t.args fun _ _ => ⟨0, 0, 0⟩).toTopo (exDraws 2 1 3) (toTopo_physical _) rfl rfl
  have r := TopoReach.call (t.args fun _ _ => ⟨0, 0, 0⟩).toTopo (exDraws 2 1 3) (TopoReach.init (c := c))
  have hr : Relocated [((t.args fun _ _ => ⟨0, 0, 0⟩).toTopo, exDraws 2 1 3,
      (setTopology c (TopoState.init c) (t.args fun _ _ => ⟨0, 0, 0⟩).toTopo (exDraws 2 1 3)).2)] := ⟨_, List.mem_singleton_self _, hset⟩
  obtain ⟨-, -, -, -, -, p1, p2, -⟩ := C127_attributes_partial hc r hr
  obtain ⟨_, _, -, -, -, h3⟩ := scene_reached hc r hr
  have ha : TopoCall.accepted ((t.args fun _ _ => ⟨0, 0, 0⟩).toTopo, exDraws 2 1 3,
      (setTopology c (TopoState.init c) (t.args fun _ _ => ⟨0, 0, 0⟩).toTopo (exDraws 2 1 3)).2) := by
    intro e; dsimp only at e; rw [hset] at e; cases e
  rw [latest, if_pos ha] at p1 p2
  exact ⟨c, _, _, _, t, _, hc, r, hr, hw, hp, ht, by norm_num, by norm_num, rfl, p1, p2, h3, fun b u => by linarith [(h1 b u).2.1]⟩

end OpenNTN
