import Verif.Model.RoundingAngles
import Verif.Props.RoundingTaps

/-
C212: wrapping of angles with rounding.
-/
namespace OpenNTN

open Spec

theorem truncRemainder (x : ℝ) :
    |x - 360 * truncInt (x / 360)| < 360 ∧ (0 ≤ x → 0 ≤ x - 360 * truncInt (x / 360)) ∧ (x ≤ 0 → x - 360 * truncInt (x / 360) ≤ 0) := by
  unfold truncInt
  rw [abs_lt]
  split_ifs with h
  · have a := Int.floor_le (x / 360)
    have b := Int.lt_floor_add_one (x / 360)
    have x0 : 0 ≤ x := by linarith
    refine ⟨⟨by linarith, by linarith⟩, fun _ => by linarith, fun h0 => ?_⟩
    rw [le_antisymm h0 x0]; simp
  · push Not at h
    have a := Int.le_ceil (x / 360)
    have b := Int.ceil_lt_add_one (x / 360)
    exact ⟨⟨by linarith, by linarith⟩, fun _ => by linarith, fun _ => by linarith⟩

/-- C212: with exact arithmetic these are the angles of the model. -/
theorem C212_model (x cluster spread offset : ℝ) :
    Arith.exact.wrap360 x = wrapAngle0_360 x ∧ Arith.exact.azimuthRay cluster spread offset = azimuthRay cluster spread offset ∧
    Arith.exact.zenithRay cluster spread offset = zenithRay cluster spread offset := by
  have key : ∀ y, Arith.exact.wrap360 y = wrapAngle0_360 y := by
    intro y
    obtain ⟨h1, h2, h3⟩ := truncRemainder y
    obtain ⟨l, u⟩ := abs_lt.1 h1
    simp only [Arith.wrap360, Arith.exact, id, wrapAngle0_360, fmod]
    have f : ∀ n : ℤ, 0 ≤ y - 360 * n → y - 360 * n < 360 → ⌊y / 360⌋ = n := by
      intro n a b
      rw [Int.floor_eq_iff]
      constructor <;> linarith
    split_ifs with hm
    · rw [f (truncInt (y / 360) - 1) (by push_cast; linarith) (by push_cast; linarith)]
      push_cast; ring
    · rw [f _ (not_lt.1 hm) u]
  refine ⟨key x, ?_, ?_⟩
  · simp only [Arith.azimuthRay, azimuthRay, key]
    rfl
  · simp only [Arith.zenithRay, zenithRay, key]
    rfl

/-- Angle `a` in degree is angle `b` up to whole turns and a tolerance. -/
def Spec.SameAngle (a b tol : ℝ) : Prop := ∃ k : ℤ, |a - b - 360 * k| ≤ tol

theorem num_small {f : Format} (hf : IEEE f) {n : ℤ} (h : |n| < 2 ^ 24) : f.Num n :=
  ⟨n, 0, lt_of_lt_of_le h (by rcases hf with rfl | rfl <;> norm_num [single, double]), by rcases hf with rfl | rfl <;> norm_num [single, double],
    by rcases hf with rfl | rfl <;> norm_num [single, double], by simp⟩

/-- Rounding keeps integers as bounds. -/
theorem rnd_le_int {f : Format} (hf : IEEE f) {r : ℝ → ℝ} (hr : Nearest f r) {x : ℝ} {n : ℤ} (hx : |x| ≤ 10 ^ 30) (hn : |n| < 2 ^ 24) :
    (x ≤ n → r x ≤ n) ∧ (n ≤ x → n ≤ r x) := by
  have big := range_ge hf
  have n1 : |(n : ℝ)| < f.range := by
    have : |(n : ℝ)| < 2 ^ 24 := by exact_mod_cast hn
    exact this.trans (lt_trans (by norm_num) big)
  have e := hr.num (num_small hf hn) n1
  have x1 : |x| < f.range := hx.trans_lt (lt_trans (by norm_num) big)
  constructor
  · intro h; rw [← e]; exact hr.mono x1 n1 h
  · intro h; rw [← e]; exact hr.mono n1 x1 h

theorem tiny_small : (2 : ℝ) ^ (-126 : ℤ) ≤ 1 / 10 ^ 30 := by norm_num

/-- One rounding of a number of size at most `B`. -/
theorem rnd_within {f : Format} (hf : IEEE f) {r : ℝ → ℝ} (hr : Nearest f r) {x B : ℝ} (hx : |x| ≤ B) (hB : B ≤ 10 ^ 30) (B1 : 1 / 100 ≤ B) :
    |r x - x| ≤ f.unit * (B * (1 + 1 / 1000)) := by
  have e := rnd_err hf hr (hx.trans hB)
  have u : (2 : ℝ) ^ (-126 : ℤ) ≤ f.unit * (B / 1000) := by
    have : (1 : ℝ) / 2 ^ 53 ≤ f.unit := by
      rcases hf with rfl | rfl
      · rw [unit_single]; norm_num
      · rw [unit_double]; norm_num
    calc (2 : ℝ) ^ (-126 : ℤ) ≤ 1 / 2 ^ 53 * (1 / 100 / 1000) := by norm_num
      _ ≤ f.unit * (B / 1000) := by gcongr
  have : f.unit * |x| ≤ f.unit * B := by have := unit_pos f; gcongr
  have e2 : f.unit * (B * (1 + 1 / 1000)) = f.unit * B + f.unit * (B / 1000) := by ring
  rw [e2]
  exact e.trans (add_le_add this u)

/-- C212, wrapping: the result is in the closed range and is the angle given, up to a rounding. -/
theorem C212_wrap (f : Format) (hf : IEEE f) (A : Arith) (hr : Nearest f A.rnd) (x : ℝ) :
    0 ≤ A.wrap360 x ∧ A.wrap360 x ≤ 360 ∧ Spec.SameAngle (A.wrap360 x) x (361 * f.unit) := by
  obtain ⟨h1, h2, h3⟩ := truncRemainder x
  obtain ⟨l, u⟩ := abs_lt.1 h1
  simp only [Arith.wrap360]
  set m := x - 360 * (truncInt (x / 360) : ℝ) with hm
  have up := unit_pos f
  split_ifs with hn
  · have ab : |m + 360| ≤ 360 := by rw [abs_le]; constructor <;> linarith
    have lo := (rnd_le_int hf hr (x := m + 360) (n := 0) (ab.trans (by norm_num)) (by norm_num)).2 (by push_cast; linarith)
    have hi := (rnd_le_int hf hr (x := m + 360) (n := 360) (ab.trans (by norm_num)) (by norm_num)).1 (by push_cast; linarith)
    refine ⟨by exact_mod_cast lo, by exact_mod_cast hi, 1 - truncInt (x / 360), ?_⟩
    have := rnd_within hf hr ab (by norm_num) (by norm_num)
    have e : A.rnd (m + 360) - x - 360 * ((1 - truncInt (x / 360) : ℤ) : ℝ) = A.rnd (m + 360) - (m + 360) := by rw [hm]; push_cast; ring
    rw [e]
    refine this.trans ?_
    rw [mul_comm]
    gcongr
    norm_num
  · refine ⟨not_lt.1 hn, u.le, -truncInt (x / 360), ?_⟩
    rw [show m - x - 360 * ((-truncInt (x / 360) : ℤ) : ℝ) = 0 by rw [hm]; push_cast; ring, abs_zero]
    positivity

/-- C212, top: small negative angles give 360 degrees, which is outside the documented range. -/
theorem C212_top (A : Arith) (hr : Nearest single A.rnd) : A.wrap360 (-1 / 10 ^ 6) = 360 := by
  have ht : truncInt (-1 / 10 ^ 6 / 360 : ℝ) = 0 := by
    unfold truncInt
    rw [if_neg (by norm_num), Int.ceil_eq_iff]
    norm_num
  simp only [Arith.wrap360, ht]
  rw [if_pos (by norm_num)]
  have q : A.rnd (-1 / 10 ^ 6 - 360 * ((0 : ℤ) : ℝ) + 360) = (11796480 : ℤ) * (2 : ℝ) ^ (-15 : ℤ) := by
    refine hr.eval (by norm_num [single]) 11796480 (-15) (by norm_num [single]) (by norm_num [single]) (by norm_num [single]) (by norm_num [single]) ?_ ?_
    · refine lt_trans (b := (10 : ℝ) ^ 38) ?_ (range_ge (Or.inl rfl))
      rw [abs_lt]; constructor <;> norm_num
    · rw [abs_lt]; constructor <;> norm_num
  rw [q]; norm_num

/-- The argument of the wrapping. -/
theorem ray_sum {f : Format} (hf : IEEE f) {r : ℝ → ℝ} (hr : Nearest f r) {c s o : ℝ} (hc : |c| ≤ 10 ^ 6) (hs : |s * o| ≤ 10 ^ 6) :
    |r (c + r (s * o)) - (c + s * o)| ≤ f.unit * (1.1 * |c| + 2.2 * |s * o| + 1) := by
  have up := unit_pos f
  have ul := unit_le hf
  have a0 := abs_nonneg c
  have b0 := abs_nonneg (s * o)
  have e1 := rnd_within hf hr (x := s * o) (B := |s * o| + 1 / 10) (by linarith) (by norm_num at hs ⊢; linarith) (by linarith)
  have e1' : |r (s * o) - s * o| ≤ 1 / 10 * |s * o| + 1 / 10 := by
    refine e1.trans ?_
    calc f.unit * ((|s * o| + 1 / 10) * (1 + 1 / 1000)) ≤ 1 / 16777216 * ((|s * o| + 1 / 10) * (1 + 1 / 1000)) := by gcongr
      _ ≤ _ := by linarith
  have ab : |c + r (s * o)| ≤ |c| + 1.1 * |s * o| + 1 / 10 := by
    calc |c + r (s * o)| = |c + (s * o + (r (s * o) - s * o))| := by congr 1; ring
      _ ≤ |c| + (|s * o| + |r (s * o) - s * o|) := (abs_add_le _ _).trans (by gcongr; exact abs_add_le _ _)
      _ ≤ _ := by linarith
  have e2 := rnd_within hf hr ab (by norm_num at hc hs ⊢; linarith) (by linarith)
  have tri : |r (c + r (s * o)) - (c + s * o)| ≤ |r (c + r (s * o)) - (c + r (s * o))| + |r (s * o) - s * o| := by
    refine le_trans (le_of_eq ?_) (abs_add_le _ _)
    congr 1; ring
  refine tri.trans ((add_le_add e2 e1).trans ?_)
  rw [← mul_add]
  refine mul_le_mul_of_nonneg_left ?_ up.le
  linarith

theorem sameAngle_near {a b c t s : ℝ} (h : Spec.SameAngle a b t) (e : |b - c| ≤ s) : Spec.SameAngle a c (t + s) := by
  obtain ⟨k, hk⟩ := h
  refine ⟨k, ?_⟩
  calc |a - c - 360 * k| = |(a - b - 360 * k) + (b - c)| := by congr 1; ring
    _ ≤ _ := (abs_add_le _ _).trans (add_le_add hk e)

/-- C212, azimuth of rays: in the closed range from -180 to 180 degrees, and the angle of the cluster plus the offset of the ray up to whole turns and
rounding. -/
theorem C212_azimuth (f : Format) (hf : IEEE f) (A : Arith) (hr : Nearest f A.rnd) (cluster spread offset : ℝ) (hc : |cluster| ≤ 10 ^ 6)
    (hs : |spread * offset| ≤ 10 ^ 6) :
    -180 ≤ A.azimuthRay cluster spread offset ∧ A.azimuthRay cluster spread offset ≤ 180 ∧
    Spec.SameAngle (A.azimuthRay cluster spread offset) (cluster + spread * offset) (f.unit * (1.1 * |cluster| + 2.2 * |spread * offset| + 550)) := by
  have e := ray_sum hf hr hc hs
  have up := unit_pos f
  obtain ⟨w1, w2, w3⟩ := C212_wrap f hf A hr (A.rnd (cluster + A.rnd (spread * offset)))
  have w4 := sameAngle_near w3 e
  simp only [Arith.azimuthRay]
  set a := A.wrap360 (A.rnd (cluster + A.rnd (spread * offset)))
  have tot : 361 * f.unit + f.unit * (1.1 * |cluster| + 2.2 * |spread * offset| + 1) + f.unit * (180 * (1 + 1 / 1000)) ≤
      f.unit * (1.1 * |cluster| + 2.2 * |spread * offset| + 550) := by nlinarith
  obtain ⟨k, hk⟩ := w4
  split_ifs with h
  · have ab : |a - 360| ≤ 180 := by rw [abs_le]; constructor <;> linarith
    have lo := (rnd_le_int hf hr (x := a - 360) (n := -180) (ab.trans (by norm_num)) (by norm_num)).2 (by push_cast; linarith)
    have hi := (rnd_le_int hf hr (x := a - 360) (n := 0) (ab.trans (by norm_num)) (by norm_num)).1 (by push_cast; linarith)
    push_cast at lo hi
    refine ⟨lo, by linarith, k - 1, ?_⟩
    have g := rnd_within hf hr ab (by norm_num) (by norm_num)
    calc |A.rnd (a - 360) - (cluster + spread * offset) - 360 * ((k - 1 : ℤ) : ℝ)|
        = |(a - (cluster + spread * offset) - 360 * k) + (A.rnd (a - 360) - (a - 360))| := by congr 1; push_cast; ring
      _ ≤ _ := (abs_add_le _ _).trans (add_le_add hk g)
      _ ≤ _ := tot
  · refine ⟨by linarith, not_lt.1 h, k, hk.trans (le_trans ?_ tot)⟩
    have : 0 ≤ f.unit * (180 * (1 + 1 / 1000)) := by positivity
    linarith

/-- C212, zenith of rays: in the closed range from 0 to 180 degrees, and the angle of the cluster plus the offset of the ray, or its negative, up to whole
turns and rounding. -/
theorem C212_zenith (f : Format) (hf : IEEE f) (A : Arith) (hr : Nearest f A.rnd) (cluster spread offset : ℝ) (hc : |cluster| ≤ 10 ^ 6)
    (hs : |spread * offset| ≤ 10 ^ 6) :
    0 ≤ A.zenithRay cluster spread offset ∧ A.zenithRay cluster spread offset ≤ 180 ∧
    (Spec.SameAngle (A.zenithRay cluster spread offset) (cluster + spread * offset) (f.unit * (1.1 * |cluster| + 2.2 * |spread * offset| + 550)) ∨
      Spec.SameAngle (A.zenithRay cluster spread offset) (-(cluster + spread * offset)) (f.unit * (1.1 * |cluster| + 2.2 * |spread * offset| + 550))) := by
  have e := ray_sum hf hr hc hs
  have up := unit_pos f
  obtain ⟨w1, w2, w3⟩ := C212_wrap f hf A hr (A.rnd (cluster + A.rnd (spread * offset)))
  have w4 := sameAngle_near w3 e
  simp only [Arith.zenithRay]
  set a := A.wrap360 (A.rnd (cluster + A.rnd (spread * offset)))
  have tot : 361 * f.unit + f.unit * (1.1 * |cluster| + 2.2 * |spread * offset| + 1) + f.unit * (180 * (1 + 1 / 1000)) ≤
      f.unit * (1.1 * |cluster| + 2.2 * |spread * offset| + 550) := by nlinarith
  obtain ⟨k, hk⟩ := w4
  split_ifs with h
  · have ab : |360 - a| ≤ 180 := by rw [abs_le]; constructor <;> linarith
    have lo := (rnd_le_int hf hr (x := 360 - a) (n := 0) (ab.trans (by norm_num)) (by norm_num)).2 (by push_cast; linarith)
    have hi := (rnd_le_int hf hr (x := 360 - a) (n := 180) (ab.trans (by norm_num)) (by norm_num)).1 (by push_cast; linarith)
    push_cast at lo hi
    refine ⟨lo, hi, Or.inr ⟨1 - k, ?_⟩⟩
    have g := rnd_within hf hr ab (by norm_num) (by norm_num)
    calc |A.rnd (360 - a) - -(cluster + spread * offset) - 360 * ((1 - k : ℤ) : ℝ)|
        = |-(a - (cluster + spread * offset) - 360 * k) + (A.rnd (360 - a) - (360 - a))| := by congr 1; push_cast; ring
      _ ≤ _ := (abs_add_le _ _).trans (add_le_add (by rw [abs_neg]; exact hk) g)
      _ ≤ _ := tot
  · refine ⟨w1, not_lt.1 h, Or.inl ⟨k, hk.trans (le_trans ?_ tot)⟩⟩
    have : 0 ≤ f.unit * (180 * (1 + 1 / 1000)) := by positivity
    linarith

/-- A cluster just above the horizon line of the wrap: a zenith of 3 degrees with an offset of -2.1551 times 7 degrees is folded. -/
example (A : Arith) (hr : Nearest single A.rnd) : 0 ≤ A.zenithRay 3 7 (-2.1551) ∧ A.zenithRay 3 7 (-2.1551) ≤ 180 :=
  let h := C212_zenith single (Or.inl rfl) A hr 3 7 (-2.1551) (by norm_num) (by norm_num [abs_le])
  ⟨h.1, h.2.1⟩

end OpenNTN
