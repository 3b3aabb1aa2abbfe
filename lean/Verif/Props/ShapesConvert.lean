import Verif.Props.Shapes
import Verif.Props.Tdl
import Verif.Props.Ofdm
import Verif.Spec.ShapesConvert

/-
C154: shapes from the generated topology to the frequency response, and of the TDL model.
-/
namespace OpenNTN

open Shape

set_option linter.unusedSimpArgs false

attribute [local simp] expandDims axisOf upTo fromOn size ok_bind pure_ok bcast zipRev dim_self dim_one one_dim reduce reduceKeep pick squeezeAll fill
  stack choose tile Shape.cholesky concat reshape squeeze transpose transposeLast matmul gather gatherBatch broadcastTo truth
  insertDims expandToRank flattenLast2 splitLast reduceKeepAll strided

/-! ### Conversions -/

theorem toOfdmShape_eq (b y ra x ta p t f : ℕ) (normalize : Bool) :
    toOfdmShape [f] [b, y, ra, x, ta, p, t] [b, y, x, p] normalize = .ok [b, y, ra, x, ta, t, f] := by
  cases normalize <;> simp [toOfdmShape, delayOperandShape]

theorem toOfdmShape_eq_antennas (b y ra x ta p t f : ℕ) (normalize : Bool) :
    toOfdmShape [f] [b, y, ra, x, ta, p, t] [b, y, ra, x, ta, p] normalize = .ok [b, y, ra, x, ta, t, f] := by
  cases normalize <;> simp [toOfdmShape, delayOperandShape]

theorem toTimeShape_eq (b y ra x ta p t : ℕ) (lMin lMax : ℤ) (hl : lMin ≤ lMax + 1) (normalize : Bool) :
    toTimeShape [b, y, ra, x, ta, p, t] [b, y, x, p] lMin lMax normalize = .ok [b, y, ra, x, ta, t, (lMax + 1 - lMin).toNat] := by
  cases normalize <;> simp [toTimeShape, delayOperandShape, lagRange, hl]

theorem toTimeShape_eq_antennas (b y ra x ta p t : ℕ) (lMin lMax : ℤ) (hl : lMin ≤ lMax + 1) (normalize : Bool) :
    toTimeShape [b, y, ra, x, ta, p, t] [b, y, ra, x, ta, p] lMin lMax normalize = .ok [b, y, ra, x, ta, t, (lMax + 1 - lMin).toNat] := by
  cases normalize <;> simp [toTimeShape, delayOperandShape, lagRange, hl]

theorem timeToOfdmShape_eq (b y ra x ta l T : ℕ) (g : ResourceGrid) [NeZero g.fftSize] (hT : g.numTimeSamples ≤ T) :
    timeToOfdmShape [b, y, ra, x, ta, T, l] g = if g.fftSize < l then .error .invalidArgument else .ok [b, y, ra, x, ta, g.numSymbols, g.fftSize] := by
  have h0 : g.fftSize + g.cyclicPrefix ≠ 0 := by have := NeZero.pos g.fftSize; omega
  have h1 := NeZero.ne g.fftSize
  by_cases h : g.fftSize < l
  · simp [timeToOfdmShape, h0, h1, h, sliceLength_grid g hT]
  · have : l + (g.fftSize - l) = g.fftSize := by omega
    simp [timeToOfdmShape, h0, h1, h, this, sliceLength_grid g hT]

/-! ### Topologies -/

theorem relocateShape_eq (b u : ℕ) (s cell : Shape) (hs : s = [] ∨ s = [b, u]) (hc : cell = [2] ∨ cell = [b, u, 2]) :
    relocateShape [b, u, 2] s cell = .ok [b, u, 2] := by
  rcases hs with rfl | rfl <;> rcases hc with rfl | rfl <;> simp [relocateShape, mul_assoc]

theorem sectorShapes_eq (b u : ℕ) : sectorShapes b u = .ok (Spec.scene b u) := by
  simp [sectorShapes, utsShapes, dropShape, relocateShape_eq b u [] [2] (.inl rfl) (.inl rfl), Spec.scene]

/-! ### TDL -/

theorem rootShape_eq (k l : ℕ) : rootShape [k, l] = if k = l then .ok [1, 1, 1, 1, 1, k, k] else .error .invalidArgument := by
  by_cases h : k = l
  · subst h; simp [rootShape]
  · have : ¬ l = k := fun e => h e.symm
    simp [rootShape, h, this, err_bind]

theorem tdlScatterShape_eq (c : TdlSizes) (b t : ℕ) (hp : c.powers = c.clusters) :
    tdlScatterShape c [1, 1, 1, 1, 1, 1, 1, c.sinusoids] b t = .ok [b, 1, c.rxAnt, 1, c.txAnt, c.clusters, t] := by
  simp [tdlScatterShape, hp]

theorem tdlSpecularShape_eq (b r x n t : ℕ) (hn : 1 ≤ n) : tdlSpecularShape [b, 1, r, 1, x, n, t] b t = .ok [b, 1, r, 1, x, n, t] := by
  have h1 : min 1 n = 1 := by omega
  have h2 : 1 + (n - 1) = n := by omega
  simp [tdlSpecularShape, h1, h2]

/-- The sizes of the roots of the correlation matrices suit the antennas. -/
def RootsFit (c : TdlSizes) : Option ℕ → Option ℕ → Option ℕ → Prop
  | some k, _, _ => k = c.rxAnt * c.txAnt
  | none, l, m => (∀ l', l = some l' → l' = c.rxAnt) ∧ ∀ m', m = some m' → m' = c.txAnt

theorem tdlCorrelateShape_eq (c : TdlSizes) (b n t : ℕ) (k l m : Option ℕ) :
    let sq := fun n : ℕ => ([1, 1, 1, 1, 1, n, n] : Shape)
    let r := tdlCorrelateShape c [b, 1, c.rxAnt, 1, c.txAnt, n, t] (k.map sq) (l.map sq) (m.map sq)
    (RootsFit c k l m → r = .ok [b, 1, c.rxAnt, 1, c.txAnt, n, t]) ∧ (¬ RootsFit c k l m → r = .error .invalidArgument) := by
  intro sq r
  rcases k with - | k
  · rcases l with - | l <;> rcases m with - | m
    · simp [r, RootsFit, tdlCorrelateShape]
    · by_cases h : m = c.txAnt
      · simp [r, RootsFit, tdlCorrelateShape, sq, h, List.isPerm, List.range, List.range.loop]
      · have h' : ¬ c.txAnt = m := fun e => h e.symm
        simp [r, RootsFit, tdlCorrelateShape, sq, h, h', err_bind, List.isPerm, List.range, List.range.loop]
    · by_cases h : l = c.rxAnt
      · simp [r, RootsFit, tdlCorrelateShape, sq, h, List.isPerm, List.range, List.range.loop]
      · simp [r, RootsFit, tdlCorrelateShape, sq, h, err_bind, List.isPerm, List.range, List.range.loop]
    · by_cases h : l = c.rxAnt
      · by_cases h2 : m = c.txAnt
        · simp [r, RootsFit, tdlCorrelateShape, sq, h, h2, List.isPerm, List.range, List.range.loop]
        · have h' : ¬ c.txAnt = m := fun e => h2 e.symm
          simp [r, RootsFit, tdlCorrelateShape, sq, h, h2, h', err_bind, List.isPerm, List.range, List.range.loop]
      · simp [r, RootsFit, tdlCorrelateShape, sq, h, err_bind, List.isPerm, List.range, List.range.loop]
  · by_cases h : k = c.rxAnt * c.txAnt
    · simp [r, RootsFit, tdlCorrelateShape, sq, h, List.isPerm, List.range, List.range.loop]
    · simp [r, RootsFit, tdlCorrelateShape, sq, h, err_bind, List.isPerm, List.range, List.range.loop]

/-- A constructed model has as many powers and delays as clusters. -/
theorem tdlInit_lengths {a : TdlArgs} {t : Tdl} (h : tdlInit a = .ok t) :
    1 ≤ t.params.numClusters ∧ t.params.powers.length = t.params.numClusters ∧ t.params.delays.length = t.params.numClusters := by
  obtain ⟨tab, spread, hf, hl, -⟩ := tdlInit_ok h
  have hm := tdlFile_mem hf
  simp only [List.mem_cons, List.not_mem_nil, or_false] at hm
  rcases hm with rfl | rfl | rfl | rfl | rfl | rfl | rfl <;> (injection hl with hl; rw [← hl]; refine ⟨Nat.succ_le_of_lt (Nat.succ_pos _), rfl, rfl⟩)

/-- The sizes of a constructed TDL model with antennas and correlation matrices. -/
def tdlSizes (t : Tdl) (rx tx : ℕ) (spatial rxCorr txCorr : Option Shape) : TdlSizes :=
  ⟨t.params.los, t.params.numClusters, t.params.powers.length, t.params.delays.length, t.numSinusoids, rx, tx, spatial, rxCorr, txCorr⟩

theorem tdlCallShapes_roots (c : TdlSizes) (b t : ℕ) (hn : 1 ≤ c.clusters) (hp : c.powers = c.clusters) (hd : c.delays = c.clusters) (k l m : Option ℕ)
    (hi : tdlInitShapes c = .ok ([1, 1, 1, 1, 1, 1, 1, c.sinusoids], k.map fun n => [1, 1, 1, 1, 1, n, n], l.map fun n => [1, 1, 1, 1, 1, n, n],
      m.map fun n => [1, 1, 1, 1, 1, n, n])) :
    (RootsFit c k l m → tdlCallShapes c b t = .ok ([b, 1, c.rxAnt, 1, c.txAnt, c.clusters, t], [b, 1, 1, c.clusters])) ∧
    (¬ RootsFit c k l m → tdlCallShapes c b t = .error .invalidArgument) := by
  obtain ⟨q1, q2⟩ := tdlCorrelateShape_eq c b c.clusters t k l m
  constructor
  · intro h
    unfold tdlCallShapes
    rw [hi, ok_bind]
    simp only
    rw [tdlScatterShape_eq c b t hp, ok_bind, tdlSpecularShape_eq _ _ _ _ _ hn, ok_bind, ite_self]
    have d1 : insertDims [c.delays] 3 0 = .ok [1, 1, 1, c.clusters] := by simp [hd]
    have d2 : tile [1, 1, 1, c.clusters] [b, 1, 1, 1] = .ok [b, 1, 1, c.clusters] := by simp
    rw [d1, ok_bind, d2, ok_bind, q1 h]
    rfl
  · intro h
    unfold tdlCallShapes
    rw [hi, ok_bind]
    simp only
    rw [tdlScatterShape_eq c b t hp, ok_bind, tdlSpecularShape_eq _ _ _ _ _ hn, ok_bind, ite_self]
    have d1 : insertDims [c.delays] 3 0 = .ok [1, 1, 1, c.clusters] := by simp [hd]
    have d2 : tile [1, 1, 1, c.clusters] [b, 1, 1, 1] = .ok [b, 1, 1, c.clusters] := by simp
    rw [d1, ok_bind, d2, ok_bind, q2 h]
    rfl

theorem rank2 {s : Shape} (h : s.length = 2) : ∃ k l, s = [k, l] := by
  match s, h with
  | [k, l], _ => exact ⟨k, l, rfl⟩

/-- **C154 (TDL).** For every TDL model that can be constructed, all numbers of antennas, examples and samples, and all correlation matrices: the call
returns the documented shapes if every matrix in use is square with as many rows as there are antennas (or pairs of antennas), and raises otherwise.
Matrices of the receiver and transmitter are ignored if there is a joint one. -/
theorem C154_tdl {args : TdlArgs} {tdl : Tdl} (h : tdlInit args = .ok tdl) (rx tx b t : ℕ) (spatial rxCorr txCorr : Option Shape)
    (hs : ∀ s, spatial = some s → s.length = 2) (hr : ∀ s, rxCorr = some s → s.length = 2) (ht : ∀ s, txCorr = some s → s.length = 2) :
    let c := tdlSizes tdl rx tx spatial rxCorr txCorr
    let n := tdl.params.numClusters
    let good := Spec.Square spatial (rx * tx) ∧ (spatial = none → Spec.Square rxCorr rx ∧ Spec.Square txCorr tx)
    (good → tdlCallShapes c b t = .ok ([b, 1, rx, 1, tx, n, t], [b, 1, 1, n])) ∧ (¬ good → tdlCallShapes c b t = .error .invalidArgument) := by
  intro c n good
  obtain ⟨h1, h2, h3⟩ := tdlInit_lengths h
  have key := tdlCallShapes_roots c b t h1 h2 h3
  have bad (hb : tdlInitShapes c = .error .invalidArgument) : tdlCallShapes c b t = .error .invalidArgument := by unfold tdlCallShapes; rw [hb]; rfl
  have alpha : reshape [c.sinusoids] [1, 1, 1, 1, 1, 1, 1, c.sinusoids] = .ok [1, 1, 1, 1, 1, 1, 1, c.sinusoids] := by simp
  rcases spatial with - | s
  · have rootOf (o : Option Shape) (ho : ∀ s, o = some s → s.length = 2) :
        (∃ k : Option ℕ, rootOptShape o = .ok (k.map fun n => [1, 1, 1, 1, 1, n, n]) ∧ ∀ a, Spec.Square o a ↔ ∀ k', k = some k' → k' = a) ∨
        (rootOptShape o = .error .invalidArgument ∧ ∀ a, ¬ Spec.Square o a) := by
      rcases o with - | s
      · exact .inl ⟨none, rfl, fun a => by simp [Spec.Square]⟩
      · obtain ⟨k, l, rfl⟩ := rank2 (ho s rfl)
        by_cases e : k = l
        · subst e
          refine .inl ⟨some k, ?_, fun a => by simp [Spec.Square]⟩
          rw [rootOptShape, rootShape_eq, if_pos rfl]
          rfl
        · refine .inr ⟨?_, fun a ha => e ?_⟩
          · rw [rootOptShape, rootShape_eq, if_neg e]
            rfl
          · have := ha _ rfl
            simp only [List.cons.injEq, and_true] at this
            rw [this.1, this.2]
    have hgood : good ↔ Spec.Square rxCorr rx ∧ Spec.Square txCorr tx := by simp [good, Spec.Square]
    rw [hgood]
    rcases rootOf rxCorr hr with ⟨l, el, fl⟩ | ⟨el, fl⟩
    · rcases rootOf txCorr ht with ⟨m, em, fm⟩ | ⟨em, fm⟩
      · have hi : tdlInitShapes c = .ok ([1, 1, 1, 1, 1, 1, 1, c.sinusoids], (none : Option ℕ).map fun n => [1, 1, 1, 1, 1, n, n],
            l.map fun n => [1, 1, 1, 1, 1, n, n], m.map fun n => [1, 1, 1, 1, 1, n, n]) := by
          unfold tdlInitShapes
          rw [alpha, ok_bind]
          simp only [c, tdlSizes] at el em ⊢
          rw [el, ok_bind, em, ok_bind]
          rfl
        have := key none l m hi
        rw [fl rx, fm tx]
        exact this
      · refine ⟨fun g => absurd g.2 (fm tx), fun _ => bad ?_⟩
        unfold tdlInitShapes
        rw [alpha, ok_bind]
        simp only [c, tdlSizes] at el em ⊢
        rw [el, ok_bind, em]
        rfl
    · refine ⟨fun g => absurd g.1 (fl rx), fun _ => bad ?_⟩
      unfold tdlInitShapes
      rw [alpha, ok_bind]
      simp only [c, tdlSizes] at el ⊢
      rw [el]
      rfl
  · obtain ⟨k, l, rfl⟩ := rank2 (hs s rfl)
    have hgood : good ↔ k = rx * tx ∧ l = rx * tx := by simp [good, Spec.Square]
    rw [hgood]
    by_cases e : k = l
    · subst e
      have hi : tdlInitShapes c = .ok ([1, 1, 1, 1, 1, 1, 1, c.sinusoids], (some k).map fun n => [1, 1, 1, 1, 1, n, n],
          (none : Option ℕ).map fun n => [1, 1, 1, 1, 1, n, n], (none : Option ℕ).map fun n => [1, 1, 1, 1, 1, n, n]) := by
        unfold tdlInitShapes
        rw [alpha, ok_bind]
        simp only [c, tdlSizes]
        rw [rootShape_eq, if_pos rfl]
        rfl
      have := key (some k) none none hi
      rw [and_self]
      exact this
    · refine ⟨fun g => absurd (g.1.trans g.2.symm) e, fun _ => bad ?_⟩
      unfold tdlInitShapes
      rw [alpha, ok_bind]
      simp only [c, tdlSizes]
      rw [rootShape_eq, if_neg e]
      rfl

/-- **C154.** For every scenario that can be constructed, all arrays, directions and options: the generated topology for `b` examples and `u` UTs is
accepted by `set_topology`, the channel is generated, and its coefficients and delays convert to a frequency response on `f` frequencies and to taps with
the documented shapes. The taps convert to the grid if and only if there are at most as many as the size of the transform. -/
theorem C154_pipeline {cls : ScenarioClass} {args : ScenarioArgs} {config : Config} (h : mkScenario cls args = .ok config) {nl nn : ℤ}
    (hl : config.numClustersLos = .ok nl) (hn : config.numClustersNlos = .ok nn) (utAnt bsAnt : ℕ) (utDual bsDual always pathloss high doppler los : Bool)
    (st : ShapeState) (b u t f : ℕ) (hb : 0 < b) (hu : 0 < u) (normalize : Bool) (lMin lMax : ℤ) (hlag : lMin ≤ lMax) (g : ResourceGrid)
    (hg : 0 < g.fftSize) (hT : g.numTimeSamples ≤ t) :
    let c := shapeConfig config nl nn utAnt bsAnt utDual bsDual
    let up := config.direction == "uplink"
    ∃ scene st' a tau taps, sectorShapes b u = .ok scene ∧ setTopologyShapes c always st scene los = .ok st' ∧
      callShapes c always pathloss high doppler st' t = .ok (a, tau) ∧
      toOfdmShape [f] a tau normalize = .ok (Spec.response up b u utAnt bsAnt t f) ∧
      toTimeShape a tau lMin lMax normalize = .ok taps ∧ taps = Spec.response up b u utAnt bsAnt t (lMax - lMin).toNat.succ ∧
      (lMax - lMin < g.fftSize → timeToOfdmShape taps g = .ok (Spec.response up b u utAnt bsAnt g.numSymbols g.fftSize)) ∧
      (g.fftSize ≤ lMax - lMin → timeToOfdmShape taps g = .error .invalidArgument) := by
  intro c up
  obtain ⟨st', e1, e2⟩ := C150_shapes h hl hn utAnt bsAnt utDual bsDual always pathloss high doppler los st b u t hb hu [] (by simp)
  have e3 : setTopologyShapes c always st (Spec.scene b u) los = .ok st' := by
    rw [setTopologies] at e1
    cases hq : setTopologyShapes c always st (Spec.scene b u) los with
    | error e => rw [hq] at e1; cases e1
    | ok s => rw [hq, ok_bind, setTopologies] at e1; exact e1
  have hN : NeZero g.fftSize := ⟨by omega⟩
  have en : (lMax + 1 - lMin).toNat = (lMax - lMin).toNat.succ := by omega
  have q1 : ∀ b y ra x ta : ℕ, lMax - lMin < g.fftSize → timeToOfdmShape [b, y, ra, x, ta, t, (lMax - lMin).toNat.succ] g =
      .ok [b, y, ra, x, ta, g.numSymbols, g.fftSize] := fun b y ra x ta hw => by rw [timeToOfdmShape_eq _ _ _ _ _ _ _ g hT, if_neg (by omega)]
  have q2 : ∀ b y ra x ta : ℕ, g.fftSize ≤ lMax - lMin → timeToOfdmShape [b, y, ra, x, ta, t, (lMax - lMin).toNat.succ] g = .error .invalidArgument :=
    fun b y ra x ta hw => by rw [timeToOfdmShape_eq _ _ _ _ _ _ _ g hT, if_pos (by omega)]
  have e4 : callShapes c always pathloss high doppler st' t =
      .ok (Spec.coefficients up b u utAnt bsAnt ((max nl nn).toNat + 4) t, Spec.pathDelays up b u ((max nl nn).toNat + 4)) := e2
  clear_value up
  refine ⟨_, st', _, _, _, sectorShapes_eq b u, e3, e4, ?_, ?_, rfl, ?_, ?_⟩ <;>
    (unfold Spec.response; try unfold Spec.coefficients Spec.pathDelays) <;> cases up <;> simp only [if_true, if_false, Bool.false_eq_true]
  · exact toOfdmShape_eq _ _ _ _ _ _ _ _ _
  · exact toOfdmShape_eq _ _ _ _ _ _ _ _ _
  · rw [toTimeShape_eq _ _ _ _ _ _ _ _ _ (by omega), en]
  · rw [toTimeShape_eq _ _ _ _ _ _ _ _ _ (by omega), en]
  · exact q1 _ _ _ _ _
  · exact q1 _ _ _ _ _
  · exact q2 _ _ _ _ _
  · exact q2 _ _ _ _ _

/-- **C154 (conversions).** Delays per link and delays per pair of antennas give the same shapes, and coefficients and delays for two different numbers of
examples or paths, none of them one, are rejected. -/
theorem C154_delays (b y ra x ta p t f b' p' : ℕ) (normalize : Bool) :
    toOfdmShape [f] [b, y, ra, x, ta, p, t] [b, y, ra, x, ta, p] normalize = .ok [b, y, ra, x, ta, t, f] ∧
    toOfdmShape [f] [b, y, ra, x, ta, p, t] [b, y, x, p] normalize = .ok [b, y, ra, x, ta, t, f] ∧
    ((b ≠ b' ∧ b ≠ 1 ∧ b' ≠ 1) ∨ (p ≠ p' ∧ p ≠ 1 ∧ p' ≠ 1) → toOfdmShape [f] [b, y, ra, x, ta, p, t] [b', y, x, p'] normalize = .error .invalidArgument) := by
  refine ⟨toOfdmShape_eq_antennas .., toOfdmShape_eq .., fun h => ?_⟩
  have d : ∀ a b : ℕ, a ≠ b → a ≠ 1 → b ≠ 1 → dim a b = .error .invalidArgument := fun a b h1 h2 h3 => by unfold dim; rw [if_neg h1, if_neg h2, if_neg h3]
  rcases h with ⟨h1, h2, h3⟩ | ⟨h1, h2, h3⟩
  · by_cases hp : ∃ q, dim p p' = .ok q
    · obtain ⟨q, hq⟩ := hp
      simp [toOfdmShape, delayOperandShape, d _ _ h1 h2 h3, hq, err_bind]
    · have : dim p p' = .error .invalidArgument := by
        unfold dim at hp ⊢
        split_ifs at hp ⊢ <;> simp_all
      simp [toOfdmShape, delayOperandShape, this, err_bind]
  · simp [toOfdmShape, delayOperandShape, d _ _ h1 h2 h3, err_bind]

/-- Non-vacuity: a TDL model with line of sight, four by two antennas and a matrix per side, and one with a matrix that does not fit; two examples with
five UTs in an uplink scenario, a grid of fourteen symbols. -/
example : (∃ args tdl, tdlInit args = .ok tdl ∧ tdl.params.los = true ∧ Spec.Square (some [4, 4]) 4 ∧ ¬ Spec.Square (some [4, 4]) 8) ∧
    (∃ cls args config nl nn, mkScenario cls args = .ok config ∧ config.numClustersLos = .ok nl ∧ config.numClustersNlos = .ok nn) ∧
    (let g : ResourceGrid := ⟨64, 16, 14⟩; 0 < g.fftSize ∧ g.numTimeSamples ≤ 1120 ∧ (20 : ℤ) - (-6) < g.fftSize) ∧
    Spec.response true 2 5 8 6 14 64 = [2, 1, 6, 5, 8, 14, 64] := by
  refine ⟨?_, ?_, by decide, rfl⟩
  · obtain ⟨t, h, -⟩ := (C79_names_partial _ (exTdl_valid "D")).1 (by simp [Spec.tdlNames]) (by decide)
    refine ⟨_, t, h, ?_, by simp [Spec.Square], by simp [Spec.Square]⟩
    obtain ⟨tab, spread, hf, hl, -⟩ := tdlInit_ok h
    simp [tdlFile] at hf
    rw [← hf.1] at hl
    injection hl with hl
    rw [← hl]
    rfl
  · obtain ⟨config, hc⟩ := exArgs_ok .urban true false 50 (by norm_num) (by norm_num)
    obtain ⟨-, ⟨n1, e1, -⟩, ⟨n2, e2, -⟩, -⟩ := C04_admissible_values hc
    exact ⟨_, _, config, n1, n2, hc, e1, e2⟩

end OpenNTN
