import Verif.Spec.Construct
import Verif.Props.Config

/-
Properties C191-C193: construction of a channel model by the user.
-/
namespace OpenNTN

open Spec

/-- The rule by which a parameter is filled, given the positional argument in its place (if any). -/
def Rule (arg : Option PyArg) (kw : NamedArgs) (p : String × Option PyArg) (v : PyArg) : Prop :=
  (arg = some v ∧ kw.lookup p.1 = none) ∨ (arg = none ∧ kw.lookup p.1 = some v) ∨ (arg = none ∧ kw.lookup p.1 = none ∧ p.2 = some v)

theorem lookup_none_iff (kw : NamedArgs) (n : String) : kw.lookup n = none ↔ kw.any (fun a => a.1 == n) = false := by
  induction kw with
  | nil => simp
  | cons a l ih =>
    obtain ⟨m, v⟩ := a
    by_cases h : n = m
    · subst h; simp [List.lookup]
    · have h' : (n == m) = false := by simpa using h
      have h'' : (m == n) = false := by simpa using fun e : m = n => h e.symm
      simp [List.lookup, h', h'', ih]

theorem fill_iff (val : String → PyArg) (sig : Signature) (pos : List PyArg) (kw : NamedArgs) :
    fillParams sig pos kw = .ok (sig.map fun p => (p.1, val p.1)) ↔
      pos.length ≤ sig.length ∧ ∀ (i : ℕ) p, sig[i]? = some p → Rule pos[i]? kw p (val p.1) := by
  induction sig generalizing pos with
  | nil =>
    cases pos <;> simp [fillParams]
  | cons p ps ih =>
    obtain ⟨n, d⟩ := p
    have split : ∀ q : List PyArg, (∀ (i : ℕ) p, ((n, d) :: ps)[i]? = some p → Rule q[i]? kw p (val p.1)) ↔
        Rule q[0]? kw (n, d) (val n) ∧ ∀ (i : ℕ) p, ps[i]? = some p → Rule q.tail[i]? kw p (val p.1) := by
      intro q
      constructor
      · intro h
        refine ⟨h 0 (n, d) rfl, fun i p hp => ?_⟩
        have := h (i + 1) p (by simpa using hp)
        simpa using this
      · rintro ⟨h0, h1⟩ i p hp
        cases i with
        | zero => simp at hp; subst hp; exact h0
        | succ i => have := h1 i p (by simpa using hp); simpa using this
    rw [split]
    cases pos with
    | cons v vs =>
      have := ih vs
      simp only [fillParams, List.map_cons, List.length_cons, Nat.add_le_add_iff_right, List.tail_cons, List.getElem?_cons_zero]
      by_cases hk : kw.lookup n = none
      · have hk' := (lookup_none_iff kw n).1 hk
        simp only [hk', Bool.false_eq_true, if_false]
        constructor
        · intro h
          cases hf : fillParams ps vs kw with
          | error e => rw [hf] at h; cases h
          | ok r =>
            rw [hf] at h
            simp only [Except.ok.injEq, List.cons.injEq, Prod.mk.injEq, true_and] at h
            obtain ⟨hv, hr⟩ := h
            rw [hf, hr] at this
            obtain ⟨a, b⟩ := this.1 rfl
            exact ⟨a, Or.inl ⟨by rw [hv], hk⟩, b⟩
        · rintro ⟨a, b, c⟩
          rw [this.2 ⟨a, c⟩]
          rcases b with ⟨b, -⟩ | ⟨b, -⟩ | ⟨b, -⟩
          · simp only [Option.some.injEq] at b
            simp [b]
          · cases b
          · cases b
      · have hk' : kw.any (fun a => a.1 == n) = true := by
          by_contra hc
          exact hk ((lookup_none_iff kw n).2 ((Bool.not_eq_true _).mp hc))
        simp only [hk', if_true]
        constructor
        · intro h; cases h
        · rintro ⟨-, b, -⟩
          rcases b with ⟨-, b⟩ | ⟨b, -⟩ | ⟨b, -⟩
          · exact absurd b hk
          · cases b
          · cases b
    | nil =>
      have := ih []
      simp only [List.length_nil, Nat.zero_le, true_and, List.tail_nil, List.getElem?_nil] at this ⊢
      simp only [fillParams, List.map_cons]
      cases hk : kw.lookup n with
      | some v =>
        simp only []
        constructor
        · intro h
          cases hf : fillParams ps [] kw with
          | error e => rw [hf] at h; cases h
          | ok r =>
            rw [hf] at h
            simp only [Except.ok.injEq, List.cons.injEq, Prod.mk.injEq, true_and] at h
            rw [hf, h.2] at this
            exact ⟨Or.inr (Or.inl ⟨rfl, by rw [hk, h.1]⟩), this.1 rfl⟩
        · rintro ⟨b, c⟩
          rw [this.2 c]
          rcases b with ⟨b, -⟩ | ⟨-, b⟩ | ⟨-, b, -⟩
          · cases b
          · simp only [] at b
            rw [hk] at b
            simp only [Option.some.injEq] at b
            simp [b]
          · simp only [] at b
            rw [hk] at b; cases b
      | none =>
        simp only []
        cases d with
        | none =>
          simp only []
          constructor
          · intro h; cases h
          · rintro ⟨b, -⟩
            rcases b with ⟨b, -⟩ | ⟨-, b⟩ | ⟨-, -, b⟩
            · cases b
            · simp only [] at b
              rw [hk] at b; cases b
            · cases b
        | some v =>
          simp only []
          constructor
          · intro h
            cases hf : fillParams ps [] kw with
            | error e => rw [hf] at h; cases h
            | ok r =>
              rw [hf] at h
              simp only [Except.ok.injEq, List.cons.injEq, Prod.mk.injEq, true_and] at h
              rw [hf, h.2] at this
              exact ⟨Or.inr (Or.inr ⟨rfl, hk, by rw [h.1]⟩), this.1 rfl⟩
          · rintro ⟨b, c⟩
            rw [this.2 c]
            rcases b with ⟨b, -⟩ | ⟨-, b⟩ | ⟨-, -, b⟩
            · cases b
            · simp only [] at b
              rw [hk] at b; cases b
            · simp only [Option.some.injEq] at b
              simp [b]

theorem fill_names {sig : Signature} {pos : List PyArg} {kw e : NamedArgs} (h : fillParams sig pos kw = .ok e) : e.map Prod.fst = sig.map Prod.fst := by
  induction sig generalizing pos e with
  | nil => cases pos <;> simp [fillParams] at h; subst h; rfl
  | cons p ps ih =>
    obtain ⟨n, d⟩ := p
    cases pos with
    | cons v vs =>
      simp only [fillParams] at h
      split_ifs at h
      cases hf : fillParams ps vs kw with
      | error x => rw [hf] at h; cases h
      | ok r => rw [hf] at h; cases h; simp [ih hf]
    | nil =>
      simp only [fillParams] at h
      cases hf : fillParams ps [] kw with
      | error x =>
        rw [hf] at h
        split at h
        · cases h
        · split at h <;> cases h
      | ok r =>
        rw [hf] at h
        split at h
        · cases h; simp [ih hf]
        · split at h
          · cases h
          · cases h; simp [ih hf]

theorem named_eq_map {e : NamedArgs} {l : List String} (hn : l.Nodup) (h : e.map Prod.fst = l) : e = l.map fun n => (n, e.value n) := by
  subst h
  induction e with
  | nil => rfl
  | cons a t ih =>
    obtain ⟨n, v⟩ := a
    simp only [List.map_cons, List.nodup_cons] at hn
    simp only [List.map_cons, NamedArgs.value, List.lookup, beq_self_eq_true, Option.getD_some, List.cons.injEq, true_and]
    rw [List.map_map]
    conv_lhs => rw [ih hn.2]
    rw [List.map_map]
    refine List.map_congr_left fun x hx => ?_
    have : (x.1 == n) = false := by
      simp only [beq_eq_false_iff_ne]
      rintro rfl
      exact hn.1 (List.mem_map_of_mem hx)
    simp [NamedArgs.value, this]

theorem fill_shape {sig : Signature} {pos : List PyArg} {kw e : NamedArgs} (hn : (sig.map Prod.fst).Nodup) (h : fillParams sig pos kw = .ok e) :
    e = sig.map fun p => (p.1, e.value p.1) := by
  have := named_eq_map hn (fill_names h)
  conv_lhs => rw [this]
  rw [List.map_map]
  rfl

theorem parameters_eq : parameters = channelSignature.map Prod.fst := rfl

theorem lookup_mem {kw : NamedArgs} (hk : (kw.map Prod.fst).Nodup) (n : String) (v : PyArg) : kw.lookup n = some v ↔ (n, v) ∈ kw := by
  induction kw with
  | nil => simp
  | cons a t ih =>
    obtain ⟨m, w⟩ := a
    simp only [List.map_cons, List.nodup_cons] at hk
    by_cases h : n = m
    · subst h
      simp only [List.lookup, beq_self_eq_true, Option.some.injEq, List.mem_cons, Prod.mk.injEq, true_and]
      constructor
      · rintro rfl; exact Or.inl rfl
      · rintro (rfl | h)
        · rfl
        · exact absurd (List.mem_map_of_mem h) hk.1
    · have h' : (n == m) = false := by simpa using h
      simp [List.lookup, h', h, ih hk.2]

theorem passes_at {pos : List PyArg} {kw : NamedArgs} {i : ℕ} {n : String} (hi : parameters[i]? = some n) (v : PyArg) :
    Passes pos kw n v ↔ pos[i]? = some v ∨ (n, v) ∈ kw := by
  constructor
  · rintro (⟨j, hj, h⟩ | h)
    · have hn : parameters.Nodup := by decide
      have : i = j := (List.getElem?_inj (List.getElem?_eq_some_iff.1 hi).1 hn).1 (hi.trans hj.symm)
      subst this
      exact Or.inl h
    · exact Or.inr h
  · rintro (h | h)
    · exact Or.inl ⟨i, hi, h⟩
    · exact Or.inr h

/-- A default as in the signature. -/
theorem default_iff {n : String} {d : Option PyArg} (h : (n, d) ∈ channelSignature) (v : PyArg) : Default n v ↔ d = some v := by
  simp only [channelSignature, List.mem_cons, Prod.mk.injEq, List.not_mem_nil, or_false] at h
  constructor
  · rintro (_ | _) <;> simpa [eq_comm] using h
  · intro hd
    subst hd
    simp only [Option.some.injEq, reduceCtorEq, and_false, false_or] at h
    rcases h with ⟨rfl, rfl⟩ | ⟨rfl, rfl⟩ | ⟨rfl, rfl⟩ | ⟨rfl, rfl⟩ | ⟨rfl, rfl⟩ | ⟨rfl, rfl⟩ | ⟨rfl, rfl⟩ <;> constructor

theorem rule_iff {pos : List PyArg} {kw : NamedArgs} (hk : (kw.map Prod.fst).Nodup) {i : ℕ} {p : String × Option PyArg} (hi : channelSignature[i]? = some p)
    (hd : i < pos.length → ∀ v, (p.1, v) ∉ kw) (v : PyArg) : Rule pos[i]? kw p v ↔ Receives pos kw p.1 v := by
  have hi' : parameters[i]? = some p.1 := by rw [parameters_eq, List.getElem?_map, hi]; rfl
  have hm : (p.1, p.2) ∈ channelSignature := List.mem_of_getElem? hi
  have hnone : kw.lookup p.1 = none ↔ ∀ w, (p.1, w) ∉ kw := by
    constructor
    · intro h w hw
      rw [← lookup_mem hk] at hw
      rw [h] at hw; cases hw
    · intro h
      by_contra hc
      obtain ⟨w, hw⟩ := Option.ne_none_iff_exists'.1 hc
      exact h w ((lookup_mem hk _ _).1 hw)
  unfold Rule Receives
  simp only [passes_at hi', lookup_mem hk, hnone, default_iff hm]
  cases ha : pos[i]? with
  | some a =>
    have hlt : i < pos.length := (List.getElem?_eq_some_iff.1 ha).1
    have hno := hd hlt
    simp only [hno, not_false_eq_true, implies_true, and_true, reduceCtorEq, false_and, and_false, or_false, Option.some.injEq]
    constructor
    · exact Or.inl
    · rintro (h | ⟨h, -⟩)
      · exact h
      · exact absurd rfl (h a)
  | none =>
    simp

theorem pyCall_iff (val : String → PyArg) {pos : List PyArg} {kw : NamedArgs} (hk : (kw.map Prod.fst).Nodup) :
    pyCall channelSignature pos kw = .ok (channelSignature.map fun p => (p.1, val p.1)) ↔
      WellFormed pos kw ∧ ∀ n ∈ parameters, Receives pos kw n (val n) := by
  have hknown : (kw.any fun a => !(channelSignature.any fun p => p.1 == a.1)) = false ↔ ∀ a ∈ kw, a.1 ∈ parameters := by
    rw [parameters_eq]
    simp only [List.any_eq_false, Bool.not_eq_true, Bool.not_eq_false', List.any_eq_true, beq_iff_eq, List.mem_map]
  have hlen : channelSignature.length = 12 := rfl
  have hpar : ∀ (i : ℕ) n, parameters[i]? = some n ↔ ∃ p, channelSignature[i]? = some p ∧ p.1 = n := by
    intro i n
    rw [parameters_eq, List.getElem?_map]
    simp [Option.map_eq_some_iff]
  unfold pyCall WellFormed
  by_cases hb : (kw.any fun a => !(channelSignature.any fun p => p.1 == a.1)) = true
  · rw [if_pos hb]
    constructor
    · intro h; cases h
    · rintro ⟨⟨-, h, -⟩, -⟩
      rw [hknown.2 h] at hb; cases hb
  · rw [if_neg hb, fill_iff, hlen]
    have hkn := hknown.1 ((Bool.not_eq_true _).mp hb)
    constructor
    · rintro ⟨h1, h2⟩
      have hdis : ∀ (i : ℕ) n, parameters[i]? = some n → i < pos.length → ∀ v, (n, v) ∉ kw := by
        intro i n hi hlt v hv
        obtain ⟨p, hp, rfl⟩ := (hpar i n).1 hi
        rcases h2 i p hp with ⟨-, h⟩ | ⟨h, -⟩ | ⟨h, -⟩
        · rw [← lookup_mem hk, h] at hv; cases hv
        · rw [List.getElem?_eq_none_iff] at h; omega
        · rw [List.getElem?_eq_none_iff] at h; omega
      refine ⟨⟨h1, hkn, hdis⟩, fun n hn => ?_⟩
      obtain ⟨i, hi, hi'⟩ := List.mem_iff_getElem.1 hn
      have hi'' : parameters[i]? = some n := by rw [List.getElem?_eq_getElem hi, hi']
      obtain ⟨p, hp, rfl⟩ := (hpar i n).1 hi''
      exact (rule_iff hk hp (hdis i _ hi'') _).1 (h2 i p hp)
    · rintro ⟨⟨h1, -, h3⟩, h4⟩
      refine ⟨h1, fun i p hp => ?_⟩
      have hi := (hpar i p.1).2 ⟨p, hp, rfl⟩
      exact (rule_iff hk hp (h3 i _ hi) _).2 (h4 _ (List.mem_of_getElem? hi))

/-- The rest of the construction, given the values of the parameters. -/
noncomputable def finish (cls : ScenarioClass) (val : String → PyArg) : Except Err ChannelObject :=
  match (val "carrier_frequency").toNum with
  | .error x => .error x
  | .ok fc =>
  match (val "elevation_angle").toNum with
  | .error x => .error x
  | .ok el =>
  match mkScenario cls ⟨fc, (val "ut_array").toArray, (val "bs_array").toArray, (val "direction").toDirection, el, (val "enable_pathloss").truth,
      (val "enable_shadow_fading").truth, (val "doppler_enabled").truth⟩ with
  | .error x => .error x
  | .ok config =>
  match (val "average_street_width").toNum with
  | .error x => .error x
  | .ok width =>
  match (val "average_building_height").toNum with
  | .error x => .error x
  | .ok height =>
  .ok ⟨⟨config, (val "ut_array").toArray, (val "bs_array").toArray, width, height, val "precision"⟩, (val "always_generate_lsp").truth⟩

theorem channel_eq (cls : ScenarioClass) {pos : List PyArg} {kw : NamedArgs} {val : String → PyArg}
    (h : pyCall channelSignature pos kw = .ok (channelSignature.map fun p => (p.1, val p.1))) : channelCall cls pos kw = finish cls val := by
  unfold channelCall
  rw [h]
  have hs : scenarioCall cls (channelSignature.map fun p => (p.1, val p.1)) = .ok (scenarioSignature.map fun p => (p.1, val p.1)) := by
    cases cls <;> simp [scenarioCall, pyCall, fillParams, scenarioSignature, channelSignature, NamedArgs.value, List.lookup]
  simp only [hs]
  have hb : pyCall baseSignature [val "carrier_frequency", val "ut_array", val "bs_array", val "direction", val "elevation_angle", val "enable_pathloss",
      val "enable_shadow_fading", val "doppler_enabled", val "precision"] [] = .ok (baseSignature.map fun p => (p.1, val p.1)) := by
    simp [pyCall, fillParams, baseSignature]
  have hl : pyCall superSignature [val "always_generate_lsp"] [] = .ok [("always_generate_lsp", val "always_generate_lsp"), ("precision", .none)] := by
    simp [pyCall, fillParams, superSignature]
  have hv : ∀ n ∈ scenarioSignature.map Prod.fst, NamedArgs.value (scenarioSignature.map fun p => (p.1, val p.1)) n = val n := by
    simp [scenarioSignature, NamedArgs.value, List.lookup]
  have hw : ∀ n ∈ baseSignature.map Prod.fst, NamedArgs.value (baseSignature.map fun p => (p.1, val p.1)) n = val n := by
    simp [baseSignature, NamedArgs.value, List.lookup]
  have hx : NamedArgs.value (channelSignature.map fun p => (p.1, val p.1)) "always_generate_lsp" = val "always_generate_lsp" := by
    simp [channelSignature, NamedArgs.value, List.lookup]
  simp only [hx, hl]
  unfold scenarioInit
  simp only [scenarioSignature, List.map_cons, List.map_nil, List.mem_cons, List.not_mem_nil, or_false, forall_eq_or_imp, forall_eq] at hv
  obtain ⟨v1, v2, v3, v4, v5, v6, v7, v8, v9, v10, v11⟩ := hv
  simp only [scenarioSignature, List.map_cons, List.map_nil, v1, v2, v3, v4, v5, v6, v7, v8, v9, v10, v11, hb]
  unfold baseInit finish
  simp only [baseSignature, List.map_cons, List.map_nil, List.mem_cons, List.not_mem_nil, or_false, forall_eq_or_imp, forall_eq] at hw
  obtain ⟨w1, w2, w3, w4, w5, w6, w7, w8, w9⟩ := hw
  simp only [baseSignature, List.map_cons, List.map_nil, w1, w2, w3, w4, w5, w6, w7, w8, w9]
  cases (val "carrier_frequency").toNum with
  | error x => rfl
  | ok fc =>
  cases (val "elevation_angle").toNum with
  | error x => rfl
  | ok el =>
  simp only []
  generalize mkScenario cls _ = r
  cases r with
  | error x => rfl
  | ok config =>
  cases (val "average_street_width").toNum with
  | error x => rfl
  | ok width =>
  cases (val "average_building_height").toNum with
  | error x => rfl
  | ok height => simp [NamedArgs.value, List.lookup]

theorem toNum_iff (v : PyArg) (x : ℝ) : v.toNum = .ok x ↔ IsNum v x := by
  unfold IsNum
  rcases v with y | s | b | a | _
  · simp [PyArg.toNum, eq_comm]
  · simp [PyArg.toNum]
  · cases b <;> simp [PyArg.toNum, eq_comm]
  · simp [PyArg.toNum]
  · simp [PyArg.toNum]

theorem truth_iff (v : PyArg) : v.truth = true ↔ IsOn v := by
  unfold IsOn
  rcases v with y | s | b | a | _ <;> simp [PyArg.truth]

/-- A parameter receives one value only. -/
theorem receives_unique {pos : List PyArg} {kw : NamedArgs} (hk : (kw.map Prod.fst).Nodup) (hw : WellFormed pos kw) {n : String} (hn : n ∈ parameters)
    {v w : PyArg} (hv : Receives pos kw n v) (h : Receives pos kw n w) : v = w := by
  obtain ⟨i, hi, hi'⟩ := List.mem_iff_getElem.1 hn
  have hi'' : parameters[i]? = some n := by rw [List.getElem?_eq_getElem hi, hi']
  have : ∃ p, channelSignature[i]? = some p ∧ p.1 = n := by
    rw [parameters_eq, List.getElem?_map] at hi''
    simpa [Option.map_eq_some_iff] using hi''
  obtain ⟨p, hp, rfl⟩ := this
  rw [← rule_iff hk hp (hw.2.2 i _ hi'')] at hv h
  rcases hv with ⟨a, b⟩ | ⟨a, b⟩ | ⟨a, b, c⟩ <;> rcases h with ⟨a', b'⟩ | ⟨a', b'⟩ | ⟨a', b', c'⟩ <;> simp_all

theorem channel_ok {cls : ScenarioClass} {pos : List PyArg} {kw : NamedArgs} (hk : (kw.map Prod.fst).Nodup) {m : ChannelObject} (h : channelCall cls pos kw = .ok m) :
    WellFormed pos kw ∧ ∃ val : String → PyArg, (∀ n ∈ parameters, Receives pos kw n (val n)) ∧ finish cls val = .ok m := by
  cases hp : pyCall channelSignature pos kw with
  | error x => unfold channelCall at h; rw [hp] at h; cases h
  | ok e =>
    have he : fillParams channelSignature pos kw = .ok e := by
      unfold pyCall at hp
      split_ifs at hp
      exact hp
    have hsh := fill_shape (by decide +kernel : (channelSignature.map Prod.fst).Nodup) he
    rw [hsh] at hp
    obtain ⟨a, b⟩ := (pyCall_iff e.value hk).1 hp
    exact ⟨a, e.value, b, (channel_eq cls hp).symm.trans h⟩

/-- What a successful construction returns. -/
theorem finish_ok {cls : ScenarioClass} {val : String → PyArg} {m : ChannelObject} (h : finish cls val = .ok m) :
    ∃ fc el width height config,
      IsNum (val "carrier_frequency") fc ∧ IsNum (val "elevation_angle") el ∧ IsNum (val "average_street_width") width ∧
      IsNum (val "average_building_height") height ∧
      mkScenario cls ⟨fc, (val "ut_array").toArray, (val "bs_array").toArray, (val "direction").toDirection, el, (val "enable_pathloss").truth,
        (val "enable_shadow_fading").truth, (val "doppler_enabled").truth⟩ = .ok config ∧
      m = ⟨⟨config, (val "ut_array").toArray, (val "bs_array").toArray, width, height, val "precision"⟩, (val "always_generate_lsp").truth⟩ := by
  unfold finish at h
  cases h1 : (val "carrier_frequency").toNum with
  | error x => rw [h1] at h; cases h
  | ok fc =>
  rw [h1] at h
  cases h2 : (val "elevation_angle").toNum with
  | error x => rw [h2] at h; cases h
  | ok el =>
  rw [h2] at h
  simp only [] at h
  generalize hm : mkScenario cls _ = r at h
  cases r with
  | error x => cases h
  | ok config =>
  cases h3 : (val "average_street_width").toNum with
  | error x => rw [h3] at h; cases h
  | ok width =>
  rw [h3] at h
  cases h4 : (val "average_building_height").toNum with
  | error x => rw [h4] at h; cases h
  | ok height =>
  rw [h4] at h
  exact ⟨fc, el, width, height, config, (toNum_iff _ _).1 h1, (toNum_iff _ _).1 h2, (toNum_iff _ _).1 h3, (toNum_iff _ _).1 h4, hm, (Except.ok.inj h).symm⟩

theorem toArray_panel {v : PyArg} {x : ℝ} (h : v.toArray = .panel x) : v = .array (.panel x) := by
  rcases v with y | s | b | a | _ <;> simp_all [PyArg.toArray]

theorem toDirection_eq {v : PyArg} (h : v.toDirection = "uplink" ∨ v.toDirection = "downlink") : v = .str v.toDirection := by
  rcases v with y | s | b | a | _ <;> simp_all [PyArg.toDirection]

/-- C191. Whatever mixture of positional and keyword arguments a channel model is made with: every argument arrives at the attribute of the model or its
scenario that belongs to its name, and those not given have their default there. -/
theorem C191_options {cls : ScenarioClass} {pos : List PyArg} {kw : NamedArgs} (hk : (kw.map Prod.fst).Nodup) {m : ChannelObject}
    (h : channelCall cls pos kw = .ok m) :
    m.scenario.config.cls = cls ∧ ∀ n ∈ parameters, ∃ v, Receives pos kw n v ∧ ∀ w, Receives pos kw n w → w = v ∧ Holds m n w := by
  obtain ⟨hw, val, hval, hf⟩ := channel_ok hk h
  obtain ⟨fc, el, width, height, config, h1, h2, h3, h4, hm, rfl⟩ := finish_ok hf
  have hb := mkScenario_built hm
  refine ⟨hb.cls_eq, fun n hn => ⟨val n, hval n hn, fun w hr => ?_⟩⟩
  have hwv := receives_unique hk hw hn hr (hval n hn)
  refine ⟨hwv, ?_⟩
  rw [hwv]
  refine ⟨?_, ?_, ?_, ?_, ?_, ?_, ?_, ?_, ?_, ?_, ?_, ?_⟩ <;> rintro rfl
  · simpa only [hb.fc_eq] using h1
  · have := hb.ut_ok
    simp only [] at this
    simp only [this]
    exact toArray_panel this
  · have := hb.bs_ok
    simp only [] at this
    simp only [this]
    exact toArray_panel this
  · simp only [hb.dir_eq]
    exact toDirection_eq hb.dir_ok
  · simpa only [hb.el_eq] using h2
  · simp only [hb.pl_eq]; exact truth_iff _
  · simp only [hb.sf_eq]; exact truth_iff _
  · exact h3
  · exact h4
  · exact truth_iff _
  · simp only [hb.dop_eq]; exact truth_iff _
  · rfl

theorem mem_params {n : String} (h : decide (n ∈ parameters) = true) : n ∈ parameters := of_decide_eq_true h

/-- What is passed for a parameter is what it receives. -/
theorem passes_receives {pos : List PyArg} {kw : NamedArgs} {n : String} {v : PyArg} (h : Passes pos kw n v) : Receives pos kw n v := Or.inl h

theorem receives_required {pos : List PyArg} {kw : NamedArgs} {n : String} {v : PyArg} (h : Receives pos kw n v)
    (hn : n ∈ ["carrier_frequency", "ut_array", "bs_array", "direction", "elevation_angle"]) : Passes pos kw n v := by
  rcases h with h | ⟨-, h⟩
  · exact h
  · cases h <;> simp at hn

/-- C193, what holds: exactly the calls that pass the five required arguments with suitable values, only parameters that exist, and none twice, make a
channel model. -/
theorem C193_accepted_partial (cls : ScenarioClass) (pos : List PyArg) (kw : NamedArgs) (hk : (kw.map Prod.fst).Nodup) :
    (∃ m, channelCall cls pos kw = .ok m) ↔ WellFormed pos kw ∧ Suitable pos kw := by
  constructor
  · rintro ⟨m, h⟩
    obtain ⟨hw, val, hval, hf⟩ := channel_ok hk h
    obtain ⟨fc, el, width, height, config, h1, h2, h3, h4, hm, rfl⟩ := finish_ok hf
    have hb := mkScenario_built hm
    have req : ∀ n ∈ ["carrier_frequency", "ut_array", "bs_array", "direction", "elevation_angle"], Passes pos kw n (val n) :=
      fun n hn => receives_required (hval n (by revert hn n; decide)) hn
    refine ⟨hw, ⟨fc, val "carrier_frequency", (val "direction").toDirection, el, val "elevation_angle", req _ (by simp), h1, hb.fc_ok, ?_, ?_, ?_, hb.dir_ok,
      req _ (by simp), h2, hb.el_lo, hb.el_hi⟩, ?_⟩
    · exact toArray_panel hb.ut_ok ▸ req "ut_array" (by simp)
    · exact toArray_panel hb.bs_ok ▸ req "bs_array" (by simp)
    · exact toDirection_eq hb.dir_ok ▸ req "direction" (by simp)
    · rintro n v (rfl | rfl) hv
      · rw [receives_unique hk hw (by decide) (passes_receives hv) (hval "average_street_width" (by decide))]; exact ⟨_, h3⟩
      · rw [receives_unique hk hw (by decide) (passes_receives hv) (hval "average_building_height" (by decide))]; exact ⟨_, h4⟩
  · rintro ⟨hw, ⟨fc, f, d, el, e, p1, n1, hfc, p2, p3, p4, hd, p5, n5, e1, e2⟩, hnum⟩
    have hall : ∀ n, ∃ v, n ∈ parameters → Receives pos kw n v := by
      intro n
      by_cases hp : ∃ v, Passes pos kw n v
      · obtain ⟨v, hv⟩ := hp
        exact ⟨v, fun _ => Or.inl hv⟩
      · push Not at hp
        by_cases hn : n ∈ parameters
        · simp only [parameters, List.mem_cons, List.not_mem_nil, or_false] at hn
          rcases hn with rfl | rfl | rfl | rfl | rfl | rfl | rfl | rfl | rfl | rfl | rfl | rfl
          · exact absurd p1 (hp _)
          · exact absurd p2 (hp _)
          · exact absurd p3 (hp _)
          · exact absurd p4 (hp _)
          · exact absurd p5 (hp _)
          · exact ⟨_, fun _ => Or.inr ⟨hp, .pathloss⟩⟩
          · exact ⟨_, fun _ => Or.inr ⟨hp, .shadow⟩⟩
          · exact ⟨_, fun _ => Or.inr ⟨hp, .width⟩⟩
          · exact ⟨_, fun _ => Or.inr ⟨hp, .height⟩⟩
          · exact ⟨_, fun _ => Or.inr ⟨hp, .lsp⟩⟩
          · exact ⟨_, fun _ => Or.inr ⟨hp, .doppler⟩⟩
          · exact ⟨_, fun _ => Or.inr ⟨hp, .precision⟩⟩
        · exact ⟨.none, fun h => absurd h hn⟩
    choose val hval using hall
    have eqs : ∀ n ∈ parameters, ∀ v, Passes pos kw n v → val n = v :=
      fun n hn v hv => receives_unique hk hw hn (hval n hn) (passes_receives hv)
    have width : ∀ n, n = "average_street_width" ∨ n = "average_building_height" → ∃ x, (val n).toNum = .ok x := by
      intro n hn
      have hmem : n ∈ parameters := by rcases hn with rfl | rfl <;> decide
      rcases hval n hmem with h | ⟨-, h⟩
      · obtain ⟨x, hx⟩ := hnum n _ hn h
        exact ⟨x, (toNum_iff _ _).2 hx⟩
      · rcases hn with rfl | rfl
        · rw [← Option.some.inj ((default_iff (d := some (.num 20)) (by simp [channelSignature]) _).1 h)]; exact ⟨_, rfl⟩
        · rw [← Option.some.inj ((default_iff (d := some (.num 5)) (by simp [channelSignature]) _).1 h)]; exact ⟨_, rfl⟩
    obtain ⟨x, hx⟩ := width _ (Or.inl rfl)
    obtain ⟨y, hy⟩ := width _ (Or.inr rfl)
    have hp := (pyCall_iff val hk).2 ⟨hw, fun n hn => hval n hn⟩
    rw [channel_eq cls hp]
    have v1 := eqs _ (by decide) _ p1
    have v2 := eqs _ (by decide) _ p2
    have v3 := eqs _ (by decide) _ p3
    have v4 := eqs _ (by decide) _ p4
    have v5 := eqs _ (by decide) _ p5
    unfold finish
    rw [v1, v2, v3, v4, v5, (toNum_iff _ _).2 n1, (toNum_iff _ _).2 n5, hx, hy]
    simp only [PyArg.toArray, PyArg.toDirection]
    rcases mkScenario_spec cls ⟨fc, panelFor fc, panelFor fc, d, el, (val "enable_pathloss").truth, (val "enable_shadow_fading").truth,
      (val "doppler_enabled").truth⟩ with ⟨c, hc, -⟩ | ⟨-, hn⟩
    · rw [hc]; exact ⟨_, rfl⟩
    · exact absurd ⟨hd, hfc, rfl, rfl, e1, e2⟩ hn

/-- C193: the call in the documentation makes a channel model, for each of the three classes. -/
def C193_statement : Prop := ∀ cls : ScenarioClass, ∃ m, channelCall cls [] documentedCall = .ok m

/-- The code violates C193: the elevation angle, which the documented call leaves out, has no default. -/
theorem C193_violated : ¬ C193_statement := by
  intro h
  obtain ⟨m, hm⟩ := h .urban
  have := ((C193_accepted_partial .urban [] documentedCall (by decide)).1 ⟨m, hm⟩).2.1
  obtain ⟨_, _, _, _, _, -, -, -, -, -, -, -, h5, -⟩ := this
  rcases h5 with ⟨i, -, h5⟩ | h5
  · simp at h5
  · simp [documentedCall] at h5

/-- The documented call with an elevation angle works. -/
theorem C193_with_elevation (cls : ScenarioClass) (el : ℝ) (h1 : 10 ≤ el) (h2 : el ≤ 90) :
    ∃ m, channelCall cls [] (documentedCall ++ [("elevation_angle", .num el)]) = .ok m := by
  refine (C193_accepted_partial cls _ _ (by simp [documentedCall])).2 ⟨⟨by simp, by simp [documentedCall, parameters], by simp⟩,
    ⟨3.5e9, .num 3.5e9, "uplink", el, .num el, Or.inr (by simp [documentedCall]), Or.inl rfl, Or.inl ⟨by norm_num, by norm_num⟩, Or.inr (by simp [documentedCall]),
      Or.inr (by simp [documentedCall]), Or.inr (by simp [documentedCall]), Or.inl rfl, Or.inr (by simp [documentedCall]), Or.inl rfl, h1, h2⟩, ?_⟩
  rintro n v (rfl | rfl) (⟨i, -, h⟩ | h)
  · simp at h
  · simp [documentedCall] at h
  · simp at h
  · simp [documentedCall] at h

/-- C192: parameters that are not passed have the documented defaults. -/
def C192_statement : Prop :=
  ∀ (cls : ScenarioClass) (pos : List PyArg) (kw : NamedArgs) (m : ChannelObject), (kw.map Prod.fst).Nodup → channelCall cls pos kw = .ok m →
    ∀ n v, (∀ w, ¬ Passes pos kw n w) → DocumentedDefault n v → Holds m n v

/-- C192, what holds: all documented defaults but those of street width and building height, which are exchanged in the documentation. These two do
not matter, for two calls that differ in them only make scenarios with the same configuration. -/
theorem C192_defaults_partial {cls : ScenarioClass} {pos : List PyArg} {kw : NamedArgs} (hk : (kw.map Prod.fst).Nodup) {m : ChannelObject}
    (h : channelCall cls pos kw = .ok m) :
    (∀ n v, (∀ w, ¬ Passes pos kw n w) → DocumentedDefault n v → n ≠ "average_street_width" → n ≠ "average_building_height" → Holds m n v) ∧
    ((∀ w, ¬ Passes pos kw "average_street_width" w) → m.scenario.streetWidth = 20) ∧
    ((∀ w, ¬ Passes pos kw "average_building_height" w) → m.scenario.buildingHeight = 5) ∧
    ∀ pos' kw' m', (kw'.map Prod.fst).Nodup → channelCall cls pos' kw' = .ok m' →
      (∀ n v, n ≠ "average_street_width" → n ≠ "average_building_height" → (Receives pos kw n v ↔ Receives pos' kw' n v)) →
      m.scenario.config = m'.scenario.config ∧ m.alwaysGenerateLsp = m'.alwaysGenerateLsp := by
  have hopt := (C191_options hk h).2
  have dflt : ∀ n ∈ parameters, ∀ v, (∀ w, ¬ Passes pos kw n w) → Default n v → Holds m n v := by
    intro n hn v hp hd
    obtain ⟨x, -, hx⟩ := hopt n hn
    exact (hx v (Or.inr ⟨hp, hd⟩)).2
  refine ⟨?_, ?_, ?_, ?_⟩
  · intro n v hp hd n1 n2
    cases hd
    · exact dflt _ (by decide) _ hp .pathloss
    · exact dflt _ (by decide) _ hp .shadow
    · exact absurd rfl n1
    · exact absurd rfl n2
    · exact dflt _ (by decide) _ hp .lsp
    · exact dflt _ (by decide) _ hp .precision
  · intro hp
    have := (dflt _ (by decide) _ hp .width).2.2.2.2.2.2.2.1 rfl
    simpa [IsNum, eq_comm] using this
  · intro hp
    have := (dflt _ (by decide) _ hp .height).2.2.2.2.2.2.2.2.1 rfl
    simpa [IsNum, eq_comm] using this
  · intro pos' kw' m' hk' h' hsame
    obtain ⟨hw, val, hval, hf⟩ := channel_ok hk h
    obtain ⟨hw', val', hval', hf'⟩ := channel_ok hk' h'
    have e : ∀ n ∈ parameters, n ≠ "average_street_width" → n ≠ "average_building_height" → val n = val' n := fun n hn a b =>
      receives_unique hk' hw' hn ((hsame n _ a b).1 (hval n hn)) (hval' n hn)
    obtain ⟨fc, el, width, height, config, h1, h2, h3, h4, hm, rfl⟩ := finish_ok hf
    obtain ⟨fc', el', width', height', config', h1', h2', h3', h4', hm', rfl⟩ := finish_ok hf'
    rw [← toNum_iff] at h1 h2 h1' h2'
    rw [e _ (by decide) (by decide) (by decide)] at h1 h2
    rw [h1] at h1'; rw [h2] at h2'
    cases h1'; cases h2'
    rw [e "ut_array" (by decide) (by decide) (by decide), e "bs_array" (by decide) (by decide) (by decide), e "direction" (by decide) (by decide) (by decide),
      e "enable_pathloss" (by decide) (by decide) (by decide), e "enable_shadow_fading" (by decide) (by decide) (by decide),
      e "doppler_enabled" (by decide) (by decide) (by decide), hm'] at hm
    cases hm
    exact ⟨rfl, by rw [e "always_generate_lsp" (by decide) (by decide) (by decide)]⟩

/-- The code violates C192: the street width is 20 m by default, the documentation says 5 m. -/
theorem C192_violated : ¬ C192_statement := by
  intro h
  obtain ⟨m, hm⟩ := C193_with_elevation .urban 50 (by norm_num) (by norm_num)
  have hk : ((documentedCall ++ [("elevation_angle", PyArg.num 50)]).map Prod.fst).Nodup := by simp [documentedCall]
  have hp : ∀ w, ¬ Passes [] (documentedCall ++ [("elevation_angle", PyArg.num 50)]) "average_street_width" w := by
    rintro w (⟨i, -, h⟩ | h)
    · simp at h
    · simp [documentedCall] at h
  have h1 := (h .urban _ _ m hk hm _ _ hp .width).2.2.2.2.2.2.2.1 rfl
  have h2 := (C192_defaults_partial hk hm).2.1 hp
  rw [h2] at h1
  simp [IsNum] at h1

/-- Positional and keyword arguments mixed, with switches turned off: the call is accepted, and all arrive. -/
example : ∃ m, channelCall .subUrban [.num 2e9, .array (panelFor 2e9), .array (panelFor 2e9)]
    [("elevation_angle", .num 30), ("direction", .str "downlink"), ("doppler_enabled", .bool false), ("always_generate_lsp", .bool true)] = .ok m ∧
    m.scenario.config.dopplerInit = false ∧ m.alwaysGenerateLsp = true ∧ m.scenario.config.enablePathloss = true := by
  have hk : ([("elevation_angle", PyArg.num 30), ("direction", .str "downlink"), ("doppler_enabled", .bool false),
    ("always_generate_lsp", .bool true)].map Prod.fst).Nodup := by simp
  have hs : ∃ m, channelCall .subUrban [.num 2e9, .array (panelFor 2e9), .array (panelFor 2e9)]
      [("elevation_angle", .num 30), ("direction", .str "downlink"), ("doppler_enabled", .bool false), ("always_generate_lsp", .bool true)] = .ok m := by
    refine (C193_accepted_partial _ _ _ hk).2 ⟨⟨by simp, by simp [parameters], ?_⟩, ⟨2e9, .num 2e9, "downlink", 30, .num 30, Or.inl ⟨0, rfl, rfl⟩, Or.inl rfl,
      Or.inl ⟨by norm_num, by norm_num⟩, Or.inl ⟨1, rfl, rfl⟩, Or.inl ⟨2, rfl, rfl⟩, Or.inr (by simp), Or.inr rfl, Or.inr (by simp), Or.inl rfl, by norm_num,
      by norm_num⟩, ?_⟩
    · intro i n hn hi v hv
      simp only [List.length_cons, List.length_nil] at hi
      interval_cases i <;> simp [parameters] at hn <;> subst hn <;> simp at hv
    · rintro n v (rfl | rfl) (⟨i, hi, h⟩ | h)
      · have : i < 3 := (List.getElem?_eq_some_iff.1 h).1
        interval_cases i <;> simp [parameters] at hi
      · simp at h
      · have : i < 3 := (List.getElem?_eq_some_iff.1 h).1
        interval_cases i <;> simp [parameters] at hi
      · simp at h
  obtain ⟨m, hm⟩ := hs
  have hopt := (C191_options hk hm).2
  refine ⟨m, hm, ?_, ?_, ?_⟩
  · obtain ⟨v, -, hv⟩ := hopt "doppler_enabled" (by decide)
    have := (hv (.bool false) (Or.inl (Or.inr (by simp)))).2.2.2.2.2.2.2.2.2.2.2.1 rfl
    simpa [IsOn] using this
  · obtain ⟨v, -, hv⟩ := hopt "always_generate_lsp" (by decide)
    have := (hv (.bool true) (Or.inl (Or.inr (by simp)))).2.2.2.2.2.2.2.2.2.2.1 rfl
    simpa [IsOn] using this
  · obtain ⟨v, -, hv⟩ := hopt "enable_pathloss" (by decide)
    have hp : ∀ w, ¬ Passes [PyArg.num 2e9, .array (panelFor 2e9), .array (panelFor 2e9)] [("elevation_angle", PyArg.num 30), ("direction", .str "downlink"),
        ("doppler_enabled", .bool false), ("always_generate_lsp", .bool true)] "enable_pathloss" w := by
      rintro w (⟨i, hi, h⟩ | h)
      · have : i < 3 := (List.getElem?_eq_some_iff.1 h).1
        interval_cases i <;> simp [parameters] at hi
      · simp at h
    have := (hv (.bool true) (Or.inr ⟨hp, .pathloss⟩)).2.2.2.2.2.2.1 rfl
    simpa [IsOn] using this

/-- The documented names of the arrays, `rx_array` and `tx_array`, are not accepted. -/
example (cls : ScenarioClass) (a : ArrayArg) : channelCall cls [] (documentedCall ++ [("rx_array", .array a)]) = .error .typeError := by
  unfold channelCall pyCall
  rw [if_pos (by simp [documentedCall, channelSignature])]

end OpenNTN
