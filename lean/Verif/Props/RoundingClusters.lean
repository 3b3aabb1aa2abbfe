import Verif.Model.RoundingClusters
import Verif.Lemmas.Rays
import Verif.Props.RoundingAngles
import Verif.Props.RoundingLoss

/-
C213: delays and powers of clusters with rounding.
-/
namespace OpenNTN

open Spec Classical

section

variable {M : ℕ} [NeZero M]

theorem roundedSum_exact {l : List ℝ} {s : ℝ} (h : RoundedSum id l s) : s = l.sum := by
  induction h with
  | single x => simp
  | add _ _ ha hb => rw [List.sum_append, ha, hb]; rfl
  | perm p _ ha => rw [ha, p.sum_eq]

/-- C213: with exact arithmetic these are the delays and powers of the model. -/
theorem C213_model (c : Config) (los : Bool) (ds k : ℝ) (mask x u z : Fin M → ℝ) (d : (Fin M → ℝ) × (Fin M → ℝ)) (p : (Fin M → ℝ) × (Fin M → ℝ))
    (hd : clusterDelays c los ds k mask x = .ok d) (hp : clusterPowers c los ds k mask u z = .ok p) :
    ∃ rTau zeta, c.getReal .prTau los = .ok rTau ∧ c.getReal .pzeta los = .ok zeta ∧
    d = (Arith.exact.clusterDelays Real.log los rTau ds (10 * log10 k) mask x, Arith.exact.unscaledDelays Real.log rTau ds mask x) ∧
    ∀ s, RoundedSum Arith.exact.rnd (List.ofFn (rawPowers rTau zeta ds mask u z)) s →
      p.1 = Arith.exact.clusterPower (rawPowers rTau zeta ds mask u z) s ∧ p.2 = Arith.exact.anglePower los k p.1 := by
  have hu : ∀ rTau, Arith.exact.unscaledDelays Real.log rTau ds mask x = unscaledDelays rTau ds mask x := fun _ => rfl
  unfold clusterDelays at hd
  unfold clusterPowers at hp
  cases hr : c.getReal .prTau los with
  | error e => rw [hr] at hd; cases hd
  | ok rTau =>
    cases hz : c.getReal .pzeta los with
    | error e => rw [hr, hz] at hp; cases hp
    | ok zeta =>
      refine ⟨rTau, zeta, rfl, rfl, ?_, ?_⟩
      · rw [hr] at hd
        simp only [bind, Except.bind] at hd
        cases los with
        | false =>
          simp only [Bool.false_eq_true, if_false, Except.ok.injEq] at hd
          rw [← hd, ← hu]; rfl
        | true =>
          simp only [if_true, kFactorDb] at hd
          split_ifs at hd with h1
          · simp only [Except.bind] at hd
            split_ifs at hd with h2
            cases hd
            rfl
      · intro s hs
        have hs := roundedSum_exact (show RoundedSum id _ s from hs)
        rw [List.sum_ofFn] at hs
        rw [hr, hz] at hp
        simp only [bind, Except.bind] at hp
        split_ifs at hp with h1 h2 h3 h4
        · cases hp
          subst h3
          exact ⟨by rw [hs]; rfl, rfl⟩
        · cases hp
          rw [Bool.not_eq_true] at h3
          subst h3
          exact ⟨by rw [hs]; rfl, rfl⟩

/-! ### Delays -/

/-- What is needed of the logarithm of the library: no positive values up to one and no extreme ones down to the smallest draw. -/
def Spec.SaneLog (lg : ℝ → ℝ) : Prop := ∀ x, 1 / 10 ^ 6 ≤ x → x ≤ 1 → -20 ≤ lg x ∧ lg x ≤ 0

theorem rnd_nonneg {f : Format} (hf : IEEE f) {r : ℝ → ℝ} (hr : Nearest f r) {x : ℝ} (hx : x ≤ 10 ^ 30) (x0 : 0 ≤ x) : 0 ≤ r x := by
  have := (rnd_le_int hf hr (x := x) (n := 0) (by rw [abs_of_nonneg x0]; exact hx) (by norm_num)).2 (by exact_mod_cast x0)
  exact_mod_cast this

theorem rnd_mono {f : Format} (hf : IEEE f) {r : ℝ → ℝ} (hr : Nearest f r) {x y : ℝ} (hx : |x| ≤ 10 ^ 30) (hy : |y| ≤ 10 ^ 30) (le : x ≤ y) : r x ≤ r y :=
  hr.mono (hx.trans_lt (lt_trans (by norm_num) (range_ge hf))) (hy.trans_lt (lt_trans (by norm_num) (range_ge hf))) le

theorem rnd_abs_le {f : Format} (hf : IEEE f) {r : ℝ → ℝ} (hr : Nearest f r) {x : ℝ} {n : ℕ} (hx : |x| ≤ n) (hn : n < 2 ^ 24) : |r x| ≤ n := by
  have big : |x| ≤ 10 ^ 30 := hx.trans (by
    have : (n : ℝ) < 16777216 := by exact_mod_cast (show n < 16777216 from hn)
    linarith [show (16777216 : ℝ) ≤ 10 ^ 30 by norm_num])
  have n1 : |(n : ℤ)| < 2 ^ 24 := by rw [Nat.abs_cast]; exact_mod_cast hn
  have a := (rnd_le_int hf hr (x := x) (n := n) big n1).1 (by push_cast; exact (abs_le.1 hx).2)
  have b := (rnd_le_int hf hr (x := x) (n := -n) big (by rw [abs_neg]; exact n1)).2 (by push_cast; exact (abs_le.1 hx).1)
  rw [abs_le]
  push_cast at a b
  exact ⟨b, a⟩

theorem rawDelay_bound {f : Format} (hf : IEEE f) {A : Arith} (hr : Nearest f A.rnd) {lg : ℝ → ℝ} (hl : SaneLog lg) {rTau ds mask x : ℝ} (r0 : 0 ≤ rTau)
    (r1 : rTau ≤ 100) (d0 : 0 ≤ ds) (d1 : ds ≤ 1) (hm : mask = 0 ∨ mask = 1) (x0 : 1 / 10 ^ 6 ≤ x) (x1 : x ≤ 1) :
    |A.rawDelay lg rTau ds mask x| ≤ 2001 := by
  obtain ⟨l0, l1⟩ := hl x x0 x1
  have a1 : |A.rnd (-rTau * ds)| ≤ ((100 : ℕ) : ℝ) := rnd_abs_le hf hr (by
    rw [abs_mul, abs_neg, abs_of_nonneg r0, abs_of_nonneg d0]; push_cast; nlinarith) (by norm_num)
  have a2 : |A.rnd (A.rnd (-rTau * ds) * lg x)| ≤ ((2000 : ℕ) : ℝ) := rnd_abs_le hf hr (by
    rw [abs_mul, abs_of_nonpos l1]
    push_cast at a1 ⊢
    have l2 : -lg x ≤ 20 := by linarith
    have l3 : 0 ≤ -lg x := by linarith
    calc |A.rnd (-rTau * ds)| * -lg x ≤ 100 * 20 := by gcongr
      _ = 2000 := by norm_num) (by norm_num)
  have m1 : |A.rnd (1 - mask)| ≤ ((1 : ℕ) : ℝ) := rnd_abs_le hf hr (by rcases hm with rfl | rfl <;> norm_num) (by norm_num)
  have a3 : |A.rnd (A.rnd (A.rnd (-rTau * ds) * lg x) * A.rnd (1 - mask))| ≤ ((2000 : ℕ) : ℝ) := rnd_abs_le hf hr (by
    rw [abs_mul]
    push_cast at a2 m1 ⊢
    calc _ ≤ (2000 : ℝ) * 1 := by gcongr
      _ = 2000 := by norm_num) (by norm_num)
  have a4 := rnd_abs_le hf hr (x := A.rnd (A.rnd (A.rnd (-rTau * ds) * lg x) * A.rnd (1 - mask)) + mask) (n := 2001) (by
    refine (abs_add_le _ _).trans ?_
    have : |mask| ≤ 1 := by rcases hm with rfl | rfl <;> norm_num
    push_cast at a3 ⊢
    linarith) (by norm_num)
  exact_mod_cast a4

/-- The scaling of delays stays positive. -/
theorem delayScaling_rounded {f : Format} (hf : IEEE f) {A : Arith} (hr : Nearest f A.rnd) {k : ℝ} (k1 : -50 ≤ k) (k2 : k ≤ 50) :
    0.07 ≤ A.delayScaling k ∧ A.delayScaling k ≤ 10 := by
  have up := unit_pos f
  have ul := unit_le hf
  have ka : |k| ≤ 50 := by rw [abs_le]; exact ⟨k1, k2⟩
  have err : ∀ {x B : ℝ}, |x| ≤ B → B ≤ 10 ^ 6 → 1 / 100 ≤ B → |A.rnd x - x| ≤ B / 10 ^ 7 := by
    intro x B h1 h2 h3
    refine (rnd_within hf hr h1 (by linarith [show (10 : ℝ) ^ 6 ≤ 10 ^ 30 by norm_num]) h3).trans ?_
    calc f.unit * (B * (1 + 1 / 1000)) ≤ 1 / 16777216 * (B * (1 + 1 / 1000)) := by gcongr
      _ ≤ _ := by linarith
  have cerr : ∀ {c : ℝ}, |c| ≤ 1 → 1 / 10 ^ 30 ≤ |c| → |A.rnd c - c| ≤ |c| * (2 / 10 ^ 7) := by
    intro c h1 h2
    have := (rnd_rel hf hr h2 (h1.trans (by norm_num))).abs up.le (by push_cast; linarith)
    refine this.trans ?_
    push_cast
    calc (1 + 1) * f.unit * |c| ≤ (1 + 1) * (1 / 16777216) * |c| := by gcongr
      _ ≤ _ := by nlinarith [abs_nonneg c]
  have prod : ∀ {a b a' b' ea eb Ba Bb : ℝ}, |a' - a| ≤ ea → |b' - b| ≤ eb → |a| ≤ Ba → |b'| ≤ Bb → |a' * b' - a * b| ≤ ea * Bb + Ba * eb := by
    intro a b a' b' ea eb Ba Bb h1 h2 h3 h4
    calc |a' * b' - a * b| = |(a' - a) * b' + a * (b' - b)| := by congr 1; ring
      _ ≤ |a' - a| * |b'| + |a| * |b' - b| := by refine (abs_add_le _ _).trans ?_; rw [abs_mul, abs_mul]
      _ ≤ _ := by
        have := abs_nonneg (a' - a)
        have := abs_nonneg a
        have := abs_nonneg b'
        have := abs_nonneg (b' - b)
        gcongr <;> linarith
  have e0 := cerr (c := 0.7705) (by norm_num) (by norm_num)
  have e1 := cerr (c := 0.0433) (by norm_num) (by norm_num)
  have e2 := cerr (c := 0.0002) (by norm_num) (by norm_num)
  have e3 := cerr (c := 0.000017) (by norm_num) (by norm_num)
  rw [abs_of_pos (by norm_num : (0 : ℝ) < 0.7705)] at e0
  rw [abs_of_pos (by norm_num : (0 : ℝ) < 0.0433)] at e1
  rw [abs_of_pos (by norm_num : (0 : ℝ) < 0.0002)] at e2
  rw [abs_of_pos (by norm_num : (0 : ℝ) < 0.000017)] at e3
  have s2 : |k ^ 2| ≤ 2500 := by rw [abs_pow]; nlinarith [abs_nonneg k]
  have s3 : |k ^ 3| ≤ 125000 := by
    rw [abs_pow]
    calc |k| ^ 3 ≤ 50 ^ 3 := by gcongr
      _ = 125000 := by norm_num
  have q2 := err s2 (by norm_num) (by norm_num)
  have q3 := err s3 (by norm_num) (by norm_num)
  have tri : ∀ {x y e B : ℝ}, |x - y| ≤ e → |y| ≤ B → |x| ≤ B + e := by
    intro x y e B h1 h2
    calc |x| = |(x - y) + y| := by congr 1; ring
      _ ≤ |x - y| + |y| := abs_add_le _ _
      _ ≤ _ := by linarith
  have p1 := prod (a' := A.rnd 0.0433) (b' := k) e1 (show |k - k| ≤ 0 by simp) (show |(0.0433 : ℝ)| ≤ 0.0433 by norm_num) ka
  have p2 := prod (a' := A.rnd 0.0002) e2 q2 (show |(0.0002 : ℝ)| ≤ 0.0002 by norm_num) (tri q2 s2)
  have p3 := prod (a' := A.rnd 0.000017) e3 q3 (show |(0.000017 : ℝ)| ≤ 0.000017 by norm_num) (tri q3 s3)
  have b1 : |0.0433 * k| ≤ 2.2 := by rw [abs_mul, abs_of_pos (by norm_num : (0 : ℝ) < 0.0433)]; linarith
  have b2 : |0.0002 * k ^ 2| ≤ 0.5 := by rw [abs_mul, abs_of_pos (by norm_num : (0 : ℝ) < 0.0002)]; linarith
  have b3 : |0.000017 * k ^ 3| ≤ 2.2 := by rw [abs_mul, abs_of_pos (by norm_num : (0 : ℝ) < 0.000017)]; linarith
  have t1 := err (x := A.rnd 0.0433 * k) (B := 3) ((tri p1 b1).trans (by norm_num)) (by norm_num) (by norm_num)
  have t2 := err (x := A.rnd 0.0002 * A.rnd (k ^ 2)) (B := 3) ((tri p2 b2).trans (by norm_num)) (by norm_num) (by norm_num)
  have t3 := err (x := A.rnd 0.000017 * A.rnd (k ^ 3)) (B := 3) ((tri p3 b3).trans (by norm_num)) (by norm_num) (by norm_num)
  have lower : 0.075 ≤ delayScaling k := by
    unfold delayScaling
    obtain ⟨t, rfl⟩ : ∃ t, k = t - 50 := ⟨k + 50, by ring⟩
    have ht : 0 ≤ t := by linarith
    nlinarith [mul_nonneg ht (sq_nonneg (t - 75.5)), sq_nonneg (t - 75.5)]
  have exact_eq : delayScaling k = 0.7705 - 0.0433 * k + 0.0002 * k ^ 2 + 0.000017 * k ^ 3 := rfl
  unfold Arith.delayScaling
  generalize A.rnd (A.rnd 0.0433 * k) = w1 at *
  generalize A.rnd (A.rnd 0.0002 * A.rnd (k ^ 2)) = w2 at *
  generalize A.rnd (A.rnd 0.000017 * A.rnd (k ^ 3)) = w3 at *
  generalize A.rnd 0.7705 = w0 at *
  rw [abs_le] at e0 p1 p2 p3 t1 t2 t3 b1 b2 b3
  norm_num at e0 p1 p2 p3 t1 t2 t3
  have v1 : |w0 - w1| ≤ 10 := by rw [abs_le]; constructor <;> linarith
  have r1 := err v1 (by norm_num) (by norm_num)
  rw [abs_le] at r1
  norm_num at r1
  have v2 : |A.rnd (w0 - w1) + w2| ≤ 10 := by rw [abs_le]; constructor <;> linarith
  have r2 := err v2 (by norm_num) (by norm_num)
  rw [abs_le] at r2
  norm_num at r2
  have v3 : |A.rnd (A.rnd (w0 - w1) + w2) + w3| ≤ 9 := by rw [abs_le]; constructor <;> linarith
  have r3 := err v3 (by norm_num) (by norm_num)
  rw [abs_le] at r3 v3
  norm_num at r3
  constructor <;> norm_num <;> linarith

/-- C213, delays: whatever is drawn, the first cluster has delay zero, no delay is negative, and they are in ascending order. -/
theorem C213_delays (f : Format) (hf : IEEE f) (A : Arith) (hr : Nearest f A.rnd) (lg : ℝ → ℝ) (hl : SaneLog lg) (los : Bool) (rTau ds kDb : ℝ)
    (r0 : 0 ≤ rTau) (r1 : rTau ≤ 100) (d0 : 0 ≤ ds) (d1 : ds ≤ 1) (k1 : -50 ≤ kDb) (k2 : kDb ≤ 50) (mask x : Fin M → ℝ) (hm : ∀ i, mask i = 0 ∨ mask i = 1)
    (hx : ∀ i, 1 / 10 ^ 6 ≤ x i ∧ x i ≤ 1) :
    A.clusterDelays lg los rTau ds kDb mask x 0 = 0 ∧ (∀ i, 0 ≤ A.clusterDelays lg los rTau ds kDb mask x i) ∧
    Monotone (A.clusterDelays lg los rTau ds kDb mask x) := by
  have zero : A.rnd 0 = 0 := hr.zero (emin_le hf)
  set raw : Fin M → ℝ := fun k => A.rawDelay lg rTau ds (mask k) (x k) with hraw
  have rb : ∀ i, |raw i| ≤ 2001 := fun i => rawDelay_bound hf hr hl r0 r1 d0 d1 (hm i) (hx i).1 (hx i).2
  have db : ∀ i, |raw i - reduceMin raw| ≤ 4002 := by
    intro i
    obtain ⟨j, hj⟩ := reduceMin_mem raw
    rw [hj]
    exact (abs_sub _ _).trans (by linarith [rb i, rb j])
  have pos : ∀ i, 0 ≤ A.rnd (raw i - reduceMin raw) := fun i =>
    rnd_nonneg hf hr (((abs_le.1 (db i)).2).trans (by norm_num)) (by linarith [reduceMin_le raw i])
  have up : ∀ i, A.rnd (raw i - reduceMin raw) ≤ 4002 := by
    intro i
    have := rnd_abs_le hf hr (x := raw i - reduceMin raw) (n := 4002) (by push_cast; exact db i) (by norm_num)
    push_cast at this
    exact (abs_le.1 this).2
  have mono := tfSort_mono fun k => A.rnd (raw k - reduceMin raw)
  have first : tfSort (fun k => A.rnd (raw k - reduceMin raw)) 0 = 0 := by
    obtain ⟨j, hj⟩ := reduceMin_mem raw
    refine le_antisymm ?_ (pos _)
    have h := mono (Fin.zero_le ((Tuple.sort fun k => A.rnd (raw k - reduceMin raw)).symm j))
    refine h.trans (le_of_eq ?_)
    simp only [tfSort, Function.comp_apply, Equiv.apply_symm_apply]
    rw [hj, sub_self, zero]
  cases los with
  | false => exact ⟨first, fun i => pos _, mono⟩
  | true =>
    have sc := (delayScaling_rounded hf hr k1 k2).1
    have s0 : 0 < A.delayScaling kDb := lt_of_lt_of_le (by norm_num) sc
    have bd : ∀ i, 0 ≤ tfSort (fun k => A.rnd (raw k - reduceMin raw)) i / A.delayScaling kDb ∧
        tfSort (fun k => A.rnd (raw k - reduceMin raw)) i / A.delayScaling kDb ≤ 10 ^ 30 := by
      intro i
      refine ⟨div_nonneg (pos _) s0.le, ?_⟩
      rw [div_le_iff₀ s0]
      calc tfSort (fun k => A.rnd (raw k - reduceMin raw)) i ≤ 4002 := up _
        _ ≤ 10 ^ 30 * 0.07 := by norm_num
        _ ≤ _ := by gcongr
    refine ⟨?_, fun i => rnd_nonneg hf hr (bd i).2 (bd i).1, fun i j hij => ?_⟩
    · show A.rnd (tfSort (fun k => A.rnd (raw k - reduceMin raw)) 0 / A.delayScaling kDb) = 0
      rw [first, zero_div, zero]
    · refine rnd_mono hf hr ?_ ?_ (div_le_div_of_nonneg_right (mono hij) s0.le)
      · exact (abs_of_nonneg (bd i).1).trans_le (bd i).2
      · exact (abs_of_nonneg (bd j).1).trans_le (bd j).2

/-! ### Powers -/

/-- Sums of numbers of the format never underflow. -/
theorem rnd_add_rel {f : Format} (hf : IEEE f) {r : ℝ → ℝ} (hr : Nearest f r) {a b : ℝ} (ha : f.Num a) (hb : f.Num b) (h : |a + b| ≤ 10 ^ 30) :
    Rel f.unit 1 (a + b) (r (a + b)) := by
  have big : |a + b| < f.range := h.trans_lt (lt_trans (by norm_num) (range_ge hf))
  have up := unit_pos f
  by_cases hs : (2 : ℝ) ^ (f.emin + f.digits - 1) ≤ |a + b|
  · exact Rel.of_err up.le (unit_lt_one hf) (hr.rel (digits_pos hf) hs big)
  · push Not at hs
    have mult : ∀ {x : ℝ}, f.Num x → ∃ n : ℤ, x = n * (2 : ℝ) ^ f.emin := by
      rintro x ⟨m, e, _, he, _, rfl⟩
      refine ⟨m * 2 ^ (e - f.emin).toNat, ?_⟩
      push_cast
      rw [mul_assoc, ← zpow_natCast, Int.toNat_of_nonneg (by omega), ← zpow_add₀ (by norm_num)]
      congr 2; omega
    obtain ⟨m, rfl⟩ := mult ha
    obtain ⟨n, rfl⟩ := mult hb
    have e1 : (m : ℝ) * 2 ^ f.emin + n * 2 ^ f.emin = ((m + n : ℤ) : ℝ) * 2 ^ f.emin := by push_cast; ring
    have num : f.Num ((m : ℝ) * 2 ^ f.emin + n * 2 ^ f.emin) := by
      refine ⟨m + n, f.emin, ?_, le_refl _, emin_le hf, e1⟩
      rw [e1, abs_mul, abs_of_pos (show (0 : ℝ) < 2 ^ f.emin by positivity)] at hs
      have : |((m + n : ℤ) : ℝ)| < 2 ^ f.digits := by
        rw [add_sub_assoc, zpow_add₀ (by norm_num), mul_comm] at hs
        have := lt_of_mul_lt_mul_left hs (by positivity)
        refine this.trans_le ?_
        rw [← zpow_natCast]
        exact zpow_le_zpow_right₀ (by norm_num) (by omega)
      exact_mod_cast this
    rw [hr.num num big]
    exact Rel.mono up.le (unit_lt_one hf) (by norm_num) (Rel.refl _ _)

/-- The sum in any order: at least each term, and accurate. -/
theorem roundedSum_rel {f : Format} (hf : IEEE f) {r : ℝ → ℝ} (hr : Nearest f r) {l : List ℝ} {s : ℝ} (h : RoundedSum r l s) :
    l.length ≤ 20 → (∀ x ∈ l, f.Num x ∧ 0 ≤ x ∧ x ≤ 10 ^ 20) →
    f.Num s ∧ 0 < l.length ∧ (∀ x ∈ l, x ≤ s) ∧ Rel f.unit (l.length - 1) l.sum s ∧ 0 ≤ l.sum ∧ l.sum ≤ l.length * 10 ^ 20 ∧ 0 ≤ s := by
  have up := unit_pos f
  have u1 := unit_lt_one hf
  induction h with
  | single x =>
    intro _ hx
    obtain ⟨n, x0, x1⟩ := hx x (by simp)
    refine ⟨n, by simp, by simp, ?_, by simpa using x0, by simpa using x1, x0⟩
    simpa using Rel.refl f.unit x
  | @perm l r' a p _ ih =>
    intro hl hx
    have := ih (by rw [p.length_eq]; exact hl) fun x h => hx x (p.mem_iff.1 h)
    rw [← p.length_eq, ← p.sum_eq]
    exact ⟨this.1, this.2.1, fun x h => this.2.2.1 x (p.mem_iff.2 h), this.2.2.2⟩
  | @add l r' a b _ _ ha hb =>
    intro hl hx
    rw [List.length_append] at hl
    obtain ⟨na, la, ma, ra, sa, ba, a0⟩ := ha (by omega) fun x h => hx x (List.mem_append_left _ h)
    obtain ⟨nb, lb, mb, rb, sb, bb, b0⟩ := hb (by omega) fun x h => hx x (List.mem_append_right _ h)
    have ra' := Rel.mono up.le u1 (show l.length - 1 ≤ l.length + r'.length - 2 by omega) ra
    have rb' := Rel.mono up.le u1 (show r'.length - 1 ≤ l.length + r'.length - 2 by omega) rb
    have rs : Rel f.unit (l.length + r'.length - 2) (l.sum + r'.sum) (a + b) := by
      rcases (add_nonneg sa sb).lt_or_eq with h | h
      · exact Rel.add sa sb h ra' rb'
      · have h1 : l.sum = 0 := by linarith
        have h2 : r'.sum = 0 := by linarith
        obtain ⟨q, _, _, e1⟩ := ra'
        obtain ⟨q', _, _, e2⟩ := rb'
        rw [h1, zero_mul] at e1
        rw [h2, zero_mul] at e2
        rw [h1, h2, e1, e2]
        exact Rel.mono up.le u1 (Nat.zero_le _) (by simpa using Rel.refl f.unit 0)
    have lenb : ((l.length : ℝ) + r'.length) ≤ 20 := by exact_mod_cast hl
    have sb1 : l.sum + r'.sum ≤ 20 * 10 ^ 20 := by nlinarith
    have ab : a + b ≤ 10 ^ 30 := by
      rcases (add_nonneg sa sb).lt_or_eq with h | h
      · have := (Rel.bounds hf (by omega) h rs).2
        norm_num at sb1 ⊢; linarith
      · obtain ⟨q, _, _, e1⟩ := rs
        rw [e1, ← h]; norm_num
    have aab : |a + b| ≤ 10 ^ 30 := by rw [abs_of_nonneg (add_nonneg a0 b0)]; exact ab
    have big : |a + b| < f.range := aab.trans_lt (lt_trans (by norm_num) (range_ge hf))
    have le1 : a ≤ r (a + b) := by
      have h1 : |a| ≤ 10 ^ 30 := by rw [abs_of_nonneg a0]; linarith
      have := rnd_mono hf hr h1 aab (by linarith)
      rwa [hr.num na (h1.trans_lt (lt_trans (by norm_num) (range_ge hf)))] at this
    have le2 : b ≤ r (a + b) := by
      have h1 : |b| ≤ 10 ^ 30 := by rw [abs_of_nonneg b0]; linarith
      have := rnd_mono hf hr h1 aab (by linarith)
      rwa [hr.num nb (h1.trans_lt (lt_trans (by norm_num) (range_ge hf)))] at this
    refine ⟨(hr _ big).1, by rw [List.length_append]; omega, ?_, ?_, ?_, ?_, a0.trans le1⟩
    · intro x hxm
      rcases List.mem_append.1 hxm with h | h
      · exact (ma x h).trans le1
      · exact (mb x h).trans le2
    · rw [List.sum_append, List.length_append]
      have := Rel.trans u1 rs (rnd_add_rel hf hr na nb aab)
      rwa [show l.length + r'.length - 2 + 1 = l.length + r'.length - 1 by omega] at this
    · rw [List.sum_append]; exact add_nonneg sa sb
    · rw [List.sum_append, List.length_append]; push_cast; linarith

/-- C213, powers: from powers that are numbers of the format, not all of them tiny, and whatever the order of additions, the normalised powers are in
the unit interval, each is accurate, and they sum to one up to a few units. -/
theorem C213_powers (f : Format) (hf : IEEE f) (A : Arith) (hr : Nearest f A.rnd) (hM : M ≤ 20) (raw : Fin M → ℝ)
    (hraw : ∀ i, f.Num (raw i) ∧ 0 ≤ raw i ∧ raw i ≤ 10 ^ 20) (hbig : ∃ i, 1 / 10 ^ 20 ≤ raw i) (s : ℝ) (hs : RoundedSum A.rnd (List.ofFn raw) s) :
    (∀ i, 0 ≤ A.clusterPower raw s i ∧ A.clusterPower raw s i ≤ 1) ∧
    (∀ i, |A.clusterPower raw s i - raw i / ∑ j, raw j| ≤ (M + 2) * f.unit * (raw i / ∑ j, raw j) + (2 : ℝ) ^ (-126 : ℤ)) ∧
    |∑ i, A.clusterPower raw s i - 1| ≤ (M + 3) * f.unit := by
  have up := unit_pos f
  have ul := unit_le hf
  obtain ⟨_, _, each, rel, _, _, _⟩ := roundedSum_rel hf hr hs (by rw [List.length_ofFn]; exact hM) (by
    intro x hx
    obtain ⟨i, rfl⟩ := (List.mem_ofFn' raw x).1 hx
    exact hraw i)
  rw [List.length_ofFn, List.sum_ofFn] at rel
  have each : ∀ i, raw i ≤ s := fun i => each _ ((List.mem_ofFn' raw _).2 ⟨i, rfl⟩)
  obtain ⟨b, hb⟩ := hbig
  have b0 : 0 < raw b := lt_of_lt_of_le (by norm_num) hb
  have s0 : 0 < s := b0.trans_le (each b)
  set S := ∑ j, raw j with hS
  have S0 : 0 < S := b0.trans_le (Finset.single_le_sum (f := raw) (fun i _ => (hraw i).2.1) (Finset.mem_univ b))
  have q0 : ∀ i, 0 ≤ raw i / s := fun i => div_nonneg (hraw i).2.1 s0.le
  have q1 : ∀ i, raw i / s ≤ 1 := fun i => (div_le_one s0).2 (each i)
  have qa : ∀ i, |raw i / s| ≤ 10 ^ 30 := fun i => by rw [abs_of_nonneg (q0 i)]; exact (q1 i).trans (by norm_num)
  have M20 : (M : ℝ) ≤ 20 := by exact_mod_cast hM
  have M1 : 1 ≤ M := Nat.one_le_iff_ne_zero.2 (NeZero.ne M)
  have acc : ∀ i, |A.clusterPower raw s i - raw i / S| ≤ (M + 2) * f.unit * (raw i / S) + (2 : ℝ) ^ (-126 : ℤ) := by
    intro i
    have w0 : 0 ≤ raw i / S := div_nonneg (hraw i).2.1 S0.le
    have e1 := rnd_err hf hr (qa i)
    rw [abs_of_nonneg (q0 i)] at e1
    have cast : ((M - 1 : ℕ) : ℝ) = M - 1 := by push_cast [M1]; ring
    have M1' : (1 : ℝ) ≤ M := by exact_mod_cast M1
    have e2 := (Rel.div (unit_lt_one hf) (Rel.refl f.unit (raw i)) rel).abs up.le (by
      rw [zero_add, cast]
      calc ((M : ℝ) - 1) * (M - 1 + 1) * f.unit ≤ 20 * 20 * (1 / 16777216) := by gcongr <;> linarith
        _ ≤ 1 := by norm_num)
    rw [zero_add, cast, abs_of_nonneg w0] at e2
    have e3 : raw i / s ≤ raw i / S + M * f.unit * (raw i / S) := by
      have := (abs_le.1 e2).2
      have e : ((M : ℝ) - 1 + 1) * f.unit * (raw i / S) = M * f.unit * (raw i / S) := by ring
      linarith
    have mu : M * f.unit ≤ 1 := by
      calc M * f.unit ≤ 20 * (1 / 16777216) := by gcongr
        _ ≤ 1 := by norm_num
    have e4 : f.unit * (raw i / s) ≤ 2 * f.unit * (raw i / S) := by
      calc f.unit * (raw i / s) ≤ f.unit * (raw i / S + M * f.unit * (raw i / S)) := by gcongr
        _ ≤ f.unit * (raw i / S + 1 * (raw i / S)) := by gcongr
        _ = _ := by ring
    calc |A.clusterPower raw s i - raw i / S| = |(A.rnd (raw i / s) - raw i / s) + (raw i / s - raw i / S)| := by unfold Arith.clusterPower; congr 1; ring
      _ ≤ _ := abs_add_le _ _
      _ ≤ (2 * f.unit * (raw i / S) + (2 : ℝ) ^ (-126 : ℤ)) + (M - 1 + 1) * f.unit * (raw i / S) := add_le_add (e1.trans (by gcongr)) e2
      _ = _ := by ring
  refine ⟨fun i => ⟨rnd_nonneg hf hr ((q1 i).trans (by norm_num)) (q0 i), ?_⟩, acc, ?_⟩
  · have := (rnd_le_int hf hr (x := raw i / s) (n := 1) (qa i) (by norm_num)).1 (by push_cast; exact q1 i)
    exact_mod_cast this
  · have one : ∑ i, raw i / S = 1 := by rw [← Finset.sum_div, ← hS, div_self S0.ne']
    have tiny : (2 : ℝ) ^ (-126 : ℤ) ≤ f.unit / 20 := by
      rcases hf with rfl | rfl
      · rw [unit_single]; norm_num
      · rw [unit_double]; norm_num
    calc |∑ i, A.clusterPower raw s i - 1| = |∑ i, (A.clusterPower raw s i - raw i / S)| := by rw [Finset.sum_sub_distrib, one]
      _ ≤ ∑ i, |A.clusterPower raw s i - raw i / S| := Finset.abs_sum_le_sum_abs _ _
      _ ≤ ∑ i, ((M + 2) * f.unit * (raw i / S) + (2 : ℝ) ^ (-126 : ℤ)) := Finset.sum_le_sum fun i _ => acc i
      _ = (M + 2) * f.unit + M * (2 : ℝ) ^ (-126 : ℤ) := by
        rw [Finset.sum_add_distrib, ← Finset.mul_sum, one, mul_one, Finset.sum_const, Finset.card_univ, Fintype.card_fin, nsmul_eq_mul]
      _ ≤ (M + 2) * f.unit + 20 * (f.unit / 20) := by gcongr
      _ = _ := by ring

/-- C213, angles: the division by the largest power (rays.py 456, 619) is never a division by zero. -/
theorem C213_largest (f : Format) (hf : IEEE f) (A : Arith) (hr : Nearest f A.rnd) (hM : M ≤ 20) (raw : Fin M → ℝ)
    (hraw : ∀ i, f.Num (raw i) ∧ 0 ≤ raw i ∧ raw i ≤ 10 ^ 20) (hbig : ∃ i, 1 / 10 ^ 20 ≤ raw i) (s : ℝ) (hs : RoundedSum A.rnd (List.ofFn raw) s)
    (los : Bool) (k : ℝ) (k0 : 0 ≤ k) (k1 : k ≤ 10 ^ 20) :
    0 < reduceMax (A.anglePower los k (A.clusterPower raw s)) := by
  have up := unit_pos f
  have ul := unit_le hf
  obtain ⟨bd, _, tot⟩ := C213_powers f hf A hr hM raw hraw hbig s hs
  have M20 : (M : ℝ) ≤ 20 := by exact_mod_cast hM
  have M0 : (0 : ℝ) < M := by exact_mod_cast Nat.pos_of_ne_zero (NeZero.ne M)
  obtain ⟨i, hi⟩ : ∃ i, 1 / 40 ≤ A.clusterPower raw s i := by
    by_contra hc
    push Not at hc
    have h1 : ∑ i, A.clusterPower raw s i ≤ M * (1 / 40) := by
      calc _ ≤ ∑ _i : Fin M, (1 / 40 : ℝ) := Finset.sum_le_sum fun i _ => (hc i).le
        _ = _ := by rw [Finset.sum_const, Finset.card_univ, Fintype.card_fin, nsmul_eq_mul]
    have h2 : (M + 3) * f.unit ≤ (20 + 3) * (1 / 16777216) := by gcongr
    have := (abs_le.1 tot).1
    norm_num at h2
    linarith
  have hp1 := (bd i).2
  refine lt_of_lt_of_le ?_ (le_reduceMax _ i)
  cases los with
  | false => exact lt_of_lt_of_le (by norm_num) hi
  | true =>
    have a1 := rnd_rel hf hr (x := k + 1) (by rw [abs_of_pos (by linarith)]; linarith [show (1 : ℝ) / 10 ^ 30 ≤ 1 by norm_num])
      (by rw [abs_of_pos (by linarith)]; norm_num at k1 ⊢; linarith)
    have a2 := Rel.bounds hf (by norm_num) (show 0 < k + 1 by linarith) a1
    have d0 : 0 < A.rnd (k + 1) := by linarith
    have dl : A.rnd (k + 1) ≤ 10 ^ 21 := by norm_num at k1 ⊢; linarith [a2.2]
    have dg : 1 / 2 ≤ A.rnd (k + 1) := by linarith [a2.1]
    have i1 : 1 / 10 ^ 21 ≤ 1 / A.rnd (k + 1) := one_div_le_one_div_of_le d0 dl
    have i2 : 1 / A.rnd (k + 1) ≤ 2 := by rw [div_le_iff₀ d0]; linarith
    have i0 : 0 < 1 / A.rnd (k + 1) := by positivity
    have b1 := rnd_rel hf hr (x := 1 / A.rnd (k + 1)) (by rw [abs_of_pos i0]; exact le_trans (by norm_num) i1)
      (by rw [abs_of_pos i0]; exact i2.trans (by norm_num))
    have b2 := Rel.bounds hf (by norm_num) i0 b1
    set pn := A.rnd (1 / A.rnd (k + 1)) with hpn
    have pl : 1 / 10 ^ 22 ≤ pn := le_trans (le_trans (by norm_num) (div_le_div_of_nonneg_right i1 (by norm_num : (0 : ℝ) ≤ 2))) b2.1
    have pu : pn ≤ 4 := by linarith [b2.2]
    have p0 : 0 < pn := lt_of_lt_of_le (by norm_num) pl
    have ci : 0 < A.clusterPower raw s i := lt_of_lt_of_le (by norm_num) hi
    have m0 : 0 < pn * A.clusterPower raw s i := mul_pos p0 ci
    have ml : 1 / 10 ^ 30 ≤ pn * A.clusterPower raw s i := by
      calc (1 : ℝ) / 10 ^ 30 ≤ 1 / 10 ^ 22 * (1 / 40) := by norm_num
        _ ≤ _ := by gcongr
    have mu : pn * A.clusterPower raw s i ≤ 4 := by nlinarith
    have c1 := rnd_rel hf hr (x := pn * A.clusterPower raw s i) (by rw [abs_of_pos m0]; exact ml) (by rw [abs_of_pos m0]; exact mu.trans (by norm_num))
    have c2 := Rel.bounds hf (by norm_num) m0 c1
    have c0 : 0 < A.rnd (pn * A.clusterPower raw s i) := by linarith
    by_cases h0 : i = 0
    · have kp : k * pn ≤ 10 ^ 30 := by
        calc k * pn ≤ 10 ^ 20 * 4 := by gcongr
          _ ≤ _ := by norm_num
      have kp0 : 0 ≤ A.rnd (k * pn) := rnd_nonneg hf hr kp (mul_nonneg k0 p0.le)
      have kpu : A.rnd (k * pn) ≤ 10 ^ 21 := by
        have e := rnd_err hf hr (x := k * pn) (by rw [abs_of_nonneg (mul_nonneg k0 p0.le)]; exact kp)
        rw [abs_of_nonneg (mul_nonneg k0 p0.le)] at e
        have t : (2 : ℝ) ^ (-126 : ℤ) ≤ 1 := by norm_num
        have kk : k * pn ≤ 10 ^ 20 * 4 := by gcongr
        have := (abs_le.1 e).2
        have uk : f.unit * (k * pn) ≤ 1 / 16777216 * (10 ^ 20 * 4) := by gcongr
        norm_num at kk uk ⊢
        norm_num at this
        norm_num at t
        linarith
      have sum0 : 0 < A.rnd (pn * A.clusterPower raw s i) + A.rnd (k * pn) := by linarith
      have suml : 1 / 10 ^ 30 ≤ A.rnd (pn * A.clusterPower raw s i) + A.rnd (k * pn) := by
        have : 1 / 10 ^ 22 * (1 / 40) ≤ pn * A.clusterPower raw s i := by gcongr
        have := c2.1
        norm_num at *
        linarith
      have d1 := rnd_rel hf hr (x := A.rnd (pn * A.clusterPower raw s i) + A.rnd (k * pn)) (by rw [abs_of_pos sum0]; exact suml)
        (by rw [abs_of_pos sum0]; have := c2.2; norm_num at kpu ⊢; linarith)
      have d2 := (Rel.bounds hf (by norm_num) sum0 d1).1
      simp only [Arith.anglePower, if_true, h0] at *
      linarith
    · simp only [Arith.anglePower, if_true, h0, if_false]
      exact c0

/-- Powers of three clusters in single precision, one of them inactive. -/
example (A : Arith) (hr : Nearest single A.rnd) (s : ℝ) (hs : RoundedSum A.rnd (List.ofFn ![(1 : ℝ), 1 / 2, 0]) s) :
    |∑ i, A.clusterPower ![(1 : ℝ), 1 / 2, 0] s i - 1| ≤ 6 / 16777216 := by
  have h := (C213_powers single (Or.inl rfl) A hr (by norm_num) ![(1 : ℝ), 1 / 2, 0] (by
    intro i
    fin_cases i
    · exact ⟨⟨1, 0, by norm_num [single], by norm_num [single], by norm_num [single], by norm_num⟩, by norm_num, by norm_num⟩
    · exact ⟨⟨1, -1, by norm_num [single], by norm_num [single], by norm_num [single], by norm_num⟩, by norm_num, by norm_num⟩
    · exact ⟨⟨0, 0, by norm_num [single], by norm_num [single], by norm_num [single], by norm_num⟩, by norm_num, by norm_num⟩)
    ⟨0, by norm_num⟩ s hs).2.2
  rw [unit_single] at h
  norm_num at h ⊢
  exact h

/-- Three clusters of a LoS link with a delay spread of 30 ns, the last one inactive. -/
example (A : Arith) (hr : Nearest single A.rnd) (lg : ℝ → ℝ) (hl : SaneLog lg) :
    Monotone (A.clusterDelays lg true 2.3 (3 / 10 ^ 8) 9 ![(0 : ℝ), 0, 1] ![0.7, 0.2, 0.4]) :=
  (C213_delays single (Or.inl rfl) A hr lg hl true 2.3 (3 / 10 ^ 8) 9 (by norm_num) (by norm_num) (by norm_num) (by norm_num) (by norm_num) (by norm_num)
    ![(0 : ℝ), 0, 1] ![0.7, 0.2, 0.4] (by intro i; fin_cases i <;> simp) (by intro i; fin_cases i <;> norm_num)).2.2

/-- The natural logarithm is sane. -/
example : SaneLog Real.log := by
  intro x x0 x1
  refine ⟨?_, Real.log_nonpos (by linarith [show (0 : ℝ) < 1 / 10 ^ 6 by norm_num]) x1⟩
  have h := Real.log_le_log (by norm_num) x0
  rw [show (1 : ℝ) / 10 ^ 6 = (10 ^ 6)⁻¹ by norm_num, Real.log_inv, Real.log_pow] at h
  have := log_ten_lt
  push_cast at h
  linarith

/-- Such a sum exists, with any bracketing. -/
example (r : ℝ → ℝ) : RoundedSum r (List.ofFn ![(1 : ℝ), 1 / 2, 0]) (r (1 + r (1 / 2 + 0))) := by
  have h := RoundedSum.add (RoundedSum.single (rnd := r) 1) (RoundedSum.add (RoundedSum.single (1 / 2)) (RoundedSum.single 0))
  simpa using h

end

end OpenNTN
