import Verif.Props.Config
import Verif.Spec.Shapes

/-
C150, C151: shapes.
-/
namespace OpenNTN

open Shape

set_option linter.unusedSimpArgs false

theorem ok_bind {α β : Type} (a : α) (f : α → Except Err β) : (Except.ok a >>= f) = f a := rfl
theorem err_bind {α β : Type} (e : Err) (f : α → Except Err β) : ((Except.error e : Except Err α) >>= f) = .error e := rfl
theorem pure_ok {α : Type} (a : α) : (pure a : Except Err α) = .ok a := rfl

/-- A dimension `a` stands for `b`: it is `b`, or it is repeated. -/
def Fit (a b : ℕ) : Prop := a = b ∨ a = 1

theorem dim_self (a : ℕ) : dim a a = .ok a := by simp [dim]
theorem dim_one (a : ℕ) : dim a 1 = .ok a := by unfold dim; split_ifs <;> simp_all
theorem one_dim (a : ℕ) : dim 1 a = .ok a := by unfold dim; split_ifs <;> simp_all
theorem Fit.dim {a b : ℕ} (h : Fit a b) : Shape.dim a b = .ok b := by rcases h with rfl | rfl <;> simp [dim_self, one_dim]
theorem Fit.dim' {a b : ℕ} (h : Fit a b) : Shape.dim b a = .ok b := by rcases h with rfl | rfl <;> simp [dim_self, dim_one]

attribute [local simp] expandDims axisOf upTo fromOn size ok_bind pure_ok bcast zipRev dim_self dim_one one_dim reduce reduceKeep pick squeezeAll fill
  sceneSizes stack choose tile cholesky concat reshape squeeze transpose transposeLast matmul gather gatherBatch broadcastTo truth

/-! ### The topology -/

theorem distanceShapes_eq (b u b2 : ℕ) (h2 : Fit b2 b) (hb : 0 < b2) :
    distanceShapes [b, u, 3] [b2, 1, 3] = .ok ([b, 1, u], [b, 1, u], [b, 1, u], [b, 1, u], [b, u, u]) := by
  simp [distanceShapes, h2.dim, h2.dim', hb]

/-- The shapes after an update with batch size `b` and `u` UTs. -/
def derivedShapes (b u : ℕ) : DerivedShapes :=
  let s := [b, 1, u]
  ⟨s, s, s, s, s, s, [b, u, u], s, s, s, s, s, [b, 1, u, 7], [b, 1, u, 7], s, s, s, s, s, s⟩

theorem updateShapes_eq (b u b2 b3 u3 : ℕ) (h2 : Fit b2 b) (hb : 0 < b2) (h3 : Fit b3 b) (hu : Fit u3 u) :
    updateShapes [b, u, 3] [b2, 1, 3] [b3, u3] = .ok (derivedShapes b u) := by
  rw [updateShapes, distanceShapes_eq b u b2 h2 hb]
  simp [h2.dim, h2.dim', h3.dim, h3.dim', hu.dim, hu.dim', indoorShapes, losShape, lspMeanStdShapes, pathlossShapes, derivedShapes]

theorem crossShape_eq (b u b2 b3 u3 : ℕ) (h3 : Fit b3 b) (hu : Fit u3 u) :
    crossShape [b, u, 3] [b2, 1, 3] [b3, u3] [b, 1, u] = .ok [b, 1, u, 7, 7] := by
  simp [crossShape, h3.dim, h3.dim', hu.dim, hu.dim']

theorem spatialShape_eq (b u b2 b3 u3 : ℕ) (h3 : Fit b3 b) (hu : Fit u3 u) :
    spatialShape [b, u, 3] [b2, 1, 3] [b3, u3] [b, 1, u] [b, u, u] = .ok [b, 1, 7, u, u] := by
  simp [spatialShape, h3.dim, h3.dim', hu.dim, hu.dim']

theorem maskShape_eq (c : ShapeConfig) (b u b2 b3 u3 : ℕ) (h3 : Fit b3 b) (hu : Fit u3 u) :
    maskShape c [b, u, 3] [b2, 1, 3] [b3, u3] [b, 1, u] = .ok [b, 1, u, c.clusters] := by
  have h1 : c.clustersLos + (c.clusters - c.clustersLos) = c.clusters := by unfold ShapeConfig.clusters; omega
  have h2 : c.clustersNlos + (c.clusters - c.clustersNlos) = c.clusters := by unfold ShapeConfig.clusters; omega
  simp [maskShape, h3.dim, h3.dim', hu.dim, hu.dim', h1, h2]

theorem lspShape_eq (b u b2 : ℕ) : lspShape [b, u, 3] [b2, 1, 3] [b, 1, u, 7, 7] [b, 1, 7, u, u] [b, 1, u, 7] [b, 1, u, 7] = .ok [b, 1, u] := by
  simp [lspShape, List.isPerm, List.range, List.range.loop]

/-! ### Rays -/

theorem rayAngleShape_eq (b u m : ℕ) : rayAngleShape [b, 1, u, m] [b, 1, u, 1, 1] = .ok [b, 1, u, m, 20] := by
  simp [rayAngleShape]

theorem delayShapes_eq (c : ShapeConfig) (b u b2 : ℕ) :
    delayShapes c [b, u, 3] [b2, 1, 3] [b, 1, u] [b, 1, u, c.clusters] [b, 1, u] = .ok ([b, 1, u, c.clusters], [b, 1, u, c.clusters]) := by
  simp [delayShapes]

theorem powerShapes_eq (c : ShapeConfig) (b u b2 : ℕ) (hc : 1 ≤ c.clusters) :
    powerShapes c [b, u, 3] [b2, 1, 3] [b, 1, u] [b, 1, u, c.clusters] [b, 1, u] [b, 1, u, c.clusters]
      = .ok ([b, 1, u, c.clusters], [b, 1, u, c.clusters]) := by
  have : min 1 c.clusters = 1 := by omega
  have e : 1 + (c.clusters - 1) = c.clusters := by omega
  simp [powerShapes, this, e]

theorem azimuthShape_eq (c : ShapeConfig) (b u b2 : ℕ) (hb : 0 < b2) (hc : 1 ≤ c.clusters) :
    azimuthShape c [b, u, 3] [b2, 1, 3] [b, 1, u] [b, 1, u] [b, 1, u] [b, 1, u, c.clusters] = .ok [b, 1, u, c.clusters, 20] := by
  have : min 1 c.clusters = 1 := by omega
  simp [azimuthShape, this, hb, rayAngleShape_eq]

set_option maxHeartbeats 2000000 in
theorem zenithShape_eq (c : ShapeConfig) (b u b2 b3 u3 : ℕ) (hb : 0 < b2) (h3 : Fit b3 b) (hu : Fit u3 u) (hc : 1 ≤ c.clusters) (dep : Bool) :
    zenithShape c [b, u, 3] [b2, 1, 3] [b3, u3] [b, 1, u] [b, 1, u] [b, 1, u] [b, 1, u, c.clusters] [b, 1, u] [b, 1, u, 7] dep
      = .ok [b, 1, u, c.clusters, 20] := by
  have : min 1 c.clusters = 1 := by omega
  cases dep <;> simp [zenithShape, this, hb, rayAngleShape_eq, h3.dim, h3.dim', hu.dim, hu.dim']

theorem shuffleShape_eq (c : ShapeConfig) (b u b2 : ℕ) :
    shuffleShape c [b, u, 3] [b2, 1, 3] [b, 1, u, c.clusters, 20] = .ok [b, 1, u, c.clusters, 20] := by
  simp [shuffleShape]

theorem xprShape_eq (c : ShapeConfig) (b u b2 : ℕ) : xprShape c [b, u, 3] [b2, 1, 3] [b, 1, u] = .ok [b, 1, u, c.clusters, 20] := by
  simp [xprShape]

theorem raysShapes_eq (c : ShapeConfig) (b u b2 b3 u3 : ℕ) (hb : 0 < b2) (h3 : Fit b3 b) (hu : Fit u3 u) (hc : 1 ≤ c.clusters) :
    raysShapes c [b, u, 3] [b2, 1, 3] [b3, u3] (derivedShapes b u) [b, 1, u, c.clusters] [b, 1, u]
      = .ok ⟨[b, 1, u, c.clusters], [b, 1, u, c.clusters], [b, 1, u, c.clusters, 20], [b, 1, u, c.clusters, 20]⟩ := by
  simp only [raysShapes, derivedShapes, delayShapes_eq, powerShapes_eq c b u b2 hc, azimuthShape_eq c b u b2 hb hc,
    zenithShape_eq c b u b2 b3 u3 hb h3 hu hc, shuffleShape_eq, xprShape_eq, ok_bind]
  simp

/-! ### Coefficients -/

/-- `a` and `b` meet in an elementwise operation, with result `d`. -/
def Join (a b d : ℕ) : Prop := dim a b = .ok d

theorem Join.cases {a b d : ℕ} (h : Join a b d) : (a = d ∧ b = d) ∨ (a = 1 ∧ b = d) ∨ (a = d ∧ b = 1) := by
  unfold Join dim at h
  split_ifs at h <;> injection h <;> subst_vars <;> simp

theorem Join.symm {a b d : ℕ} (h : Join a b d) : Join b a d := by
  unfold Join; rcases h.cases with ⟨rfl, rfl⟩ | ⟨rfl, rfl⟩ | ⟨rfl, rfl⟩ <;> simp

theorem Join.left {a b d : ℕ} (h : Join a b d) : Join a d d := by
  unfold Join; rcases h.cases with ⟨rfl, rfl⟩ | ⟨rfl, rfl⟩ | ⟨rfl, rfl⟩ <;> simp

theorem Join.dims {a b d : ℕ} (h : Join a b d) :
    dim a b = .ok d ∧ dim b a = .ok d ∧ dim a d = .ok d ∧ dim d a = .ok d ∧ dim b d = .ok d ∧ dim d b = .ok d :=
  ⟨h, h.symm, h.left, h.left.symm, h.symm.left, h.symm.left.symm⟩

theorem Fit.join {a b : ℕ} (h : Fit a b) : Join a b b := h.dim
theorem Join.fit {a b d : ℕ} (h : Join a b d) : Fit a d := by
  rcases h.cases with ⟨rfl, rfl⟩ | ⟨rfl, rfl⟩ | ⟨rfl, rfl⟩ <;> simp [Fit]
theorem Fit.trans {a b c : ℕ} (h : Fit a b) (h' : Fit b c) : Fit a c := by
  rcases h with rfl | rfl
  · exact h'
  · exact .inr rfl
theorem Fit.refl (a : ℕ) : Fit a a := .inl rfl

theorem rotationShape_tx (b n : ℕ) : rotationShape [b, n, 1, 1, 1, 3] = .ok [b, n, 1, 1, 1, 3, 3] := by simp [rotationShape]
theorem rotationShape_rx (b n : ℕ) : rotationShape [b, 1, n, 1, 1, 3] = .ok [b, 1, n, 1, 1, 3, 3] := by simp [rotationShape]

theorem positionsShape_eq (b n a : ℕ) : positionsShape [b, n, 3] a = .ok [b, n, a, 3] := by
  simp [positionsShape, rotationShape]

theorem sphereShape_eq (b x y m r : ℕ) : sphereShape [b, x, y, m, r] [b, x, y, m, r] = .ok [b, x, y, m, r, 3, 1] := by
  simp [sphereShape]

variable {b x y bt br xt yr b1 b2 b3 x1 y1 : ℕ}

theorem toLocalShape_tx (m r : ℕ) (hb : Join bt b b1) (hx : Join xt x x1) :
    toLocalShape [bt, xt, 1, 1, 1, 3] [b, x, y, m, r] [b, x, y, m, r] = .ok [b1, x1, y, m, r] := by
  simp [toLocalShape, sphereShape, rotationShape, hb.dims, hx.dims, List.replicate]

theorem toLocalShape_rx (m r : ℕ) (hb : Join br b b2) (hy : Join yr y y1) :
    toLocalShape [br, 1, yr, 1, 1, 3] [b, x, y, m, r] [b, x, y, m, r] = .ok [b2, x, y1, m, r] := by
  simp [toLocalShape, sphereShape, rotationShape, hb.dims, hy.dims, List.replicate]

theorem responseShape_tx (m r : ℕ) (hb : Join bt b b1) (hx : Join xt x x1) :
    responseShape [b1, x1, y, m, r, 2] [bt, xt, 1, 1, 1, 3] [b, x, y, m, r] [b, x, y, m, r] = .ok [b1, x1, y, m, r, 2, 1] := by
  simp [responseShape, hb.dims, hx.dims]

theorem responseShape_rx (m r : ℕ) (hb : Join br b b2) (hy : Join yr y y1) :
    responseShape [b2, x, y1, m, r, 2] [br, 1, yr, 1, 1, 3] [b, x, y, m, r] [b, x, y, m, r] = .ok [b2, x, y1, m, r, 2, 1] := by
  simp [responseShape, hb.dims, hy.dims]

theorem zipWith_ones (s : Shape) : List.zipWith (fun x y => x * y) s (List.replicate s.length 1) = s := by
  induction s with
  | nil => rfl
  | cons a s ih => simp [List.replicate, ih]

theorem antennaShape_eq (s : Shape) (n : ℕ) (dual : Bool) : antennaShape s n dual = .ok (n :: s) := by
  cases dual
  · simp [antennaShape, zipWith_ones]
  · simp [antennaShape]

theorem fieldShape_eq (k : CoeffShapes) (m r : ℕ) (h1 h2 h3 h4 h5 : ℕ) (hb : Join bt b b1) (hx : Join xt x x1) (hr : Join br b b2) (hy : Join yr y y1)
    (hj : Join b2 b1 b3) (et : k.txOri = [bt, xt, 3]) (er : k.rxOri = [br, yr, 3]) (g1 : Fit h1 b) (g2 : Fit h2 x) (g3 : Fit h3 y) (g4 : Fit h4 m)
    (g5 : Fit h5 r) : fieldShape k [b, x, y, m, r] [h1, h2, h3, h4, h5, 2, 2] = .ok [b3, x1, y1, m, r, k.rxAnt, k.txAnt] := by
  have f1 : Fit h1 b1 := g1.trans hb.symm.fit
  have f2 : Fit h2 x1 := g2.trans hx.symm.fit
  simp [fieldShape, et, er, toLocalShape_tx m r hb hx, toLocalShape_rx m r hr hy, responseShape_tx m r hb hx, responseShape_rx m r hr hy,
    antennaShape_eq, f1.dim, f2.dim, g3.dim, g4.dim, g5.dim, hj.dims, hx.dims, hy.dims, List.range, List.range.loop, List.isPerm, List.rotate]

theorem offsetsShape_eq (k : CoeffShapes) (m r : ℕ) (hb : Join bt b b1) (hx : Join xt x x1) (hr : Join br b b2) (hy : Join yr y y1)
    (hj : Join b2 b1 b3) (et : k.txOri = [bt, xt, 3]) (er : k.rxOri = [br, yr, 3]) :
    offsetsShape k [b, x, y, m, r] = .ok [b3, x1, y1, m, r, k.rxAnt, k.txAnt] := by
  simp [offsetsShape, et, er, sphereShape_eq, positionsShape_eq, hb.dims, hx.dims, hr.dims, hy.dims, hj.dims]

theorem dopplerShape_tx (k : CoeffShapes) (m r t bv n : ℕ) (hv : Join bv b b1) (ev : k.velocities = [bv, n, 3]) (hm : k.movingTx = true)
    (hn : Join n x x1) (eh : k.bsHeight = [1]) (es : k.satSpeed = [b]) : dopplerShape k [b, x, y, m, r] t = .ok [b1, x1, y, m, r, t] := by
  rcases hd : k.high with _ | _ <;> rcases hp : k.doppler with _ | _ <;>
    simp [dopplerShape, hm, hd, hp, ev, eh, es, sphereShape_eq, hv.dims, hn.dims]

theorem dopplerShape_rx (k : CoeffShapes) (m r t bv n : ℕ) (hv : Join bv b b1) (ev : k.velocities = [bv, n, 3]) (hm : k.movingTx = false)
    (hn : Join n y y1) (eh : k.bsHeight = [1]) (es : k.satSpeed = [b]) : dopplerShape k [b, x, y, m, r] t = .ok [b1, x, y1, m, r, t] := by
  rcases hd : k.high with _ | _ <;> rcases hp : k.doppler with _ | _ <;>
    simp [dopplerShape, hm, hd, hp, ev, eh, es, sphereShape_eq, hv.dims, hn.dims]

theorem phaseShape_eq (m r : ℕ) : phaseShape [b, x, y, m, r, 4] [b, x, y, m, r] = .ok [b, x, y, m, r, 2, 2] := by
  simp [phaseShape]
  ring

theorem faradayShape_eq (m r : ℕ) : faradayShape [b, x, y, m, r] = .ok [b, x, y, m, r, 2, 2] := by
  simp [faradayShape]

theorem dim_cases (a b : ℕ) : dim a b = .error .invalidArgument ∨ ∃ d, Join a b d := by
  unfold Join dim; split_ifs <;> simp

/-- The inputs of the coefficient generator for a topology with batch size `b`, `x` transmitters and `y` receivers, with orientations and velocities
for other numbers. -/
structure Ends (k : CoeffShapes) (b x y bt xt br yr bv n : ℕ) : Prop where
  tx : k.txOri = [bt, xt, 3]
  rx : k.rxOri = [br, yr, 3]
  vel : k.velocities = [bv, n, 3]
  height : k.bsHeight = [1]
  speed : k.satSpeed = [b]
  angles : k.losAngles = [b, x, y]
  los : k.los = [b, x, y]
  distance : k.distance3d = [b, x, y]

/-- The velocities stand for those of `x` transmitters, if these move, otherwise for those of `y` receivers. -/
def FitMoving (k : CoeffShapes) (n x y : ℕ) : Prop := if k.movingTx then Fit n x else Fit n y

variable {k : CoeffShapes} {bv n : ℕ}

theorem dopplerShape_cases (e : Ends k b x y bt xt br yr bv n) (m r t : ℕ) :
    dopplerShape k [b, x, y, m, r] t = .error .invalidArgument ∨
      ∃ b4 x2 y2, Join bv b b4 ∧ Fit x x2 ∧ Fit y y2 ∧ (if k.movingTx then Fit n x2 else Fit n y2) ∧
        dopplerShape k [b, x, y, m, r] t = .ok [b4, x2, y2, m, r, t] := by
  rcases hm : k.movingTx with _ | _
  · rcases dim_cases n y with h | ⟨y2, h⟩
    · left
      have h' : dim y n = .error .invalidArgument := by
        rcases dim_cases y n with g | ⟨d, g⟩
        · exact g
        · rw [g.symm] at h; cases h
      simp [dopplerShape, hm, e.vel, sphereShape_eq, h', err_bind]
    rcases dim_cases bv b with g | ⟨b4, g⟩
    · left
      have g' : dim b bv = .error .invalidArgument := by
        rcases dim_cases b bv with f | ⟨d, f⟩
        · exact f
        · rw [f.symm] at g; cases g
      simp [dopplerShape, hm, e.vel, sphereShape_eq, h.dims, g', err_bind]
    · exact .inr ⟨b4, x, y2, g, .refl x, h.symm.fit, by simpa using h.fit, dopplerShape_rx k m r t bv n g e.vel hm h e.height e.speed⟩
  · rcases dim_cases n x with h | ⟨x2, h⟩
    · left
      have h' : dim x n = .error .invalidArgument := by
        rcases dim_cases x n with g | ⟨d, g⟩
        · exact g
        · rw [g.symm] at h; cases h
      simp [dopplerShape, hm, e.vel, sphereShape_eq, h', err_bind]
    rcases dim_cases bv b with g | ⟨b4, g⟩
    · left
      have g' : dim b bv = .error .invalidArgument := by
        rcases dim_cases b bv with f | ⟨d, f⟩
        · exact f
        · rw [f.symm] at g; cases g
      simp [dopplerShape, hm, e.vel, sphereShape_eq, h.dims, g', err_bind]
    · exact .inr ⟨b4, x2, y, g, h.symm.fit, .refl y, by simpa using h.fit, dopplerShape_tx k m r t bv n g e.vel hm h e.height e.speed⟩

theorem toLocalShape_tx_fail (m r : ℕ) (h : ¬ ∃ b1 x1, Join bt b b1 ∧ Join xt x x1) :
    toLocalShape [bt, xt, 1, 1, 1, 3] [b, x, y, m, r] [b, x, y, m, r] = .error .invalidArgument := by
  rcases dim_cases xt x with hx | ⟨x1, hx⟩
  · simp [toLocalShape, rotationShape, sphereShape_eq, hx, err_bind]
  rcases dim_cases bt b with hb | ⟨b1, hb⟩
  · simp [toLocalShape, rotationShape, sphereShape_eq, hx.dims, hb, err_bind]
  exact absurd ⟨b1, x1, hb, hx⟩ h

theorem toLocalShape_rx_fail (m r : ℕ) (h : ¬ ∃ b2 y1, Join br b b2 ∧ Join yr y y1) :
    toLocalShape [br, 1, yr, 1, 1, 3] [b, x, y, m, r] [b, x, y, m, r] = .error .invalidArgument := by
  rcases dim_cases yr y with hy | ⟨y1, hy⟩
  · simp [toLocalShape, rotationShape, sphereShape_eq, hy, err_bind]
  rcases dim_cases br b with hb | ⟨b2, hb⟩
  · simp [toLocalShape, rotationShape, sphereShape_eq, hy.dims, hb, err_bind]
  exact absurd ⟨b2, y1, hb, hy⟩ h

/-- The fields of the two ends can be combined only if their orientations can. -/
theorem fieldShape_cases (e : Ends k b x y bt xt br yr bv n) (m r : ℕ) :
    fieldShape k [b, x, y, m, r] [b, x, y, m, r, 2, 2] = .error .invalidArgument ∨
      ∃ b1 b2 b3 x1 y1, Join bt b b1 ∧ Join xt x x1 ∧ Join br b b2 ∧ Join yr y y1 ∧ Join b2 b1 b3 := by
  by_cases ht : ∃ b1 x1, Join bt b b1 ∧ Join xt x x1
  swap
  · left; simp [fieldShape, e.tx, toLocalShape_tx_fail m r ht, err_bind]
  obtain ⟨b1, x1, hb, hx⟩ := ht
  by_cases hr : ∃ b2 y1, Join br b b2 ∧ Join yr y y1
  swap
  · left; simp [fieldShape, e.tx, e.rx, toLocalShape_tx m r hb hx, toLocalShape_rx_fail m r hr, err_bind]
  obtain ⟨b2, y1, hr, hy⟩ := hr
  rcases dim_cases b2 b1 with h | ⟨b3, hj⟩
  · left
    simp [fieldShape, e.tx, e.rx, toLocalShape_tx m r hb hx, toLocalShape_rx m r hr hy, responseShape_tx m r hb hx, responseShape_rx m r hr hy,
      antennaShape_eq, hb.dims, hx.dims, hy.dims, h, err_bind]
  exact .inr ⟨b1, b2, b3, x1, y1, hb, hx, hr, hy, hj⟩

theorem nlosShape_cases (e : Ends k b x y bt xt br yr bv n) (m t : ℕ) :
    nlosShape k ⟨[b, x, y, m], [b, x, y, m], [b, x, y, m, 20], [b, x, y, m, 20]⟩ t = .error .invalidArgument ∨
      ∃ b5 x5 y5, Fit bt b5 ∧ Fit br b5 ∧ Fit bv b5 ∧ Fit xt x5 ∧ Fit yr y5 ∧ (if k.movingTx then Fit n x5 else Fit n y5) ∧
        nlosShape k ⟨[b, x, y, m], [b, x, y, m], [b, x, y, m, 20], [b, x, y, m, 20]⟩ t = .ok [b5, x5, y5, m, 20, k.rxAnt, k.txAnt, t] := by
  have start (g : Shape → Except Err Shape) : (do
      let hPhase ← phaseShape ([b, x, y, m, 20] ++ [4]) [b, x, y, m, 20]
      truth k.bsHeight
      let hPhase ← if k.high then do
          let f ← faradayShape [b, x, y, m, 20]
          matmul hPhase f
        else pure hPhase
      g hPhase) = g [b, x, y, m, 20, 2, 2] := by
    rcases hd : k.high with _ | _ <;> simp [phaseShape_eq, faradayShape_eq, e.height]
  unfold nlosShape
  rw [start]
  rcases fieldShape_cases e m 20 with h | ⟨b1, b2, b3, x1, y1, hb, hx, hr, hy, hj⟩
  · left; simp [h, err_bind]
  rw [fieldShape_eq k m 20 b x y m 20 hb hx hr hy hj e.tx e.rx (.refl b) (.refl x) (.refl y) (.refl m) (.refl 20),
    offsetsShape_eq k m 20 hb hx hr hy hj e.tx e.rx]
  rcases dopplerShape_cases e m 20 t with h | ⟨b4, x2, y2, g1, g2, g3, g4, h⟩
  · left; simp [h, err_bind]
  rw [h]
  rcases dim_cases y1 y2 with q | ⟨y5, jy⟩
  · left; simp [q, err_bind]
  rcases dim_cases x1 x2 with q | ⟨x5, jx⟩
  · left; simp [q, jy.dims, err_bind]
  rcases dim_cases b3 b4 with q | ⟨b5, jb⟩
  · left; simp [q, jy.dims, jx.dims, err_bind]
  right
  have fb : Fit b b5 := hb.symm.fit.trans (hj.symm.fit.trans jb.fit)
  have fx : Fit x x5 := hx.symm.fit.trans jx.fit
  have fy : Fit y y5 := hy.symm.fit.trans jy.fit
  refine ⟨b5, x5, y5, hb.fit.trans (hj.symm.fit.trans jb.fit), hr.fit.trans (hj.fit.trans jb.fit), g1.fit.trans jb.symm.fit, hx.fit.trans jx.fit,
    hy.fit.trans jy.fit, ?_, ?_⟩
  · split_ifs at g4 ⊢
    · exact g4.trans jx.symm.fit
    · exact g4.trans jy.symm.fit
  · simp [jy.dims, jx.dims, jb.dims, fb.dim', fx.dim', fy.dim']

theorem nlosShape_eq (e : Ends k b x y bt xt br yr bv n) (m t : ℕ) (h1 : Fit bt b) (h2 : Fit xt x) (h3 : Fit br b) (h4 : Fit yr y) (h5 : Fit bv b)
    (h6 : FitMoving k n x y) :
    nlosShape k ⟨[b, x, y, m], [b, x, y, m], [b, x, y, m, 20], [b, x, y, m, 20]⟩ t = .ok [b, x, y, m, 20, k.rxAnt, k.txAnt, t] := by
  have hj : Join b b b := (Fit.refl b).join
  have hd : dopplerShape k [b, x, y, m, 20] t = .ok [b, x, y, m, 20, t] := by
    unfold FitMoving at h6
    rcases hm : k.movingTx with _ | _ <;> rw [hm] at h6
    · exact dopplerShape_rx k m 20 t bv n h5.join e.vel hm (by simpa using h6.join) e.height e.speed
    · exact dopplerShape_tx k m 20 t bv n h5.join e.vel hm (by simpa using h6.join) e.height e.speed
  rcases hh : k.high with _ | _ <;>
  simp [nlosShape, hh, phaseShape_eq, faradayShape_eq, e.height, offsetsShape_eq k m 20 h1.join h2.join h3.join h4.join hj e.tx e.rx, hd,
    fieldShape_eq k m 20 b x y m 20 h1.join h2.join h3.join h4.join hj e.tx e.rx (.refl b) (.refl x) (.refl y) (.refl m) (.refl 20)]

theorem losCoeffShape_eq (e : Ends k b x y bt xt br yr bv n) (t : ℕ) (h1 : Fit bt b) (h2 : Fit xt x) (h3 : Fit br b) (h4 : Fit yr y) (h5 : Fit bv b)
    (h6 : FitMoving k n x y) : losCoeffShape k t = .ok [b, x, y, 1, k.rxAnt, k.txAnt, t] := by
  have hj : Join b b b := (Fit.refl b).join
  have hd : dopplerShape k [b, x, y, 1, 1] t = .ok [b, x, y, 1, 1, t] := by
    unfold FitMoving at h6
    rcases hm : k.movingTx with _ | _ <;> rw [hm] at h6
    · exact dopplerShape_rx k 1 1 t bv n h5.join e.vel hm (by simpa using h6.join) e.height e.speed
    · exact dopplerShape_tx k 1 1 t bv n h5.join e.vel hm (by simpa using h6.join) e.height e.speed
  rcases hh : k.high with _ | _
  · simp [losCoeffShape, hh, e.height, e.angles, e.distance, hd, offsetsShape_eq k 1 1 h1.join h2.join h3.join h4.join hj e.tx e.rx,
      fieldShape_eq k 1 1 1 1 1 1 1 h1.join h2.join h3.join h4.join hj e.tx e.rx (.inr rfl) (.inr rfl) (.inr rfl) (.inr rfl) (.inr rfl)]
  · simp [losCoeffShape, hh, e.height, e.angles, e.distance, faradayShape_eq, hd, offsetsShape_eq k 1 1 h1.join h2.join h3.join h4.join hj e.tx e.rx,
      fieldShape_eq k 1 1 b x y 1 1 h1.join h2.join h3.join h4.join hj e.tx e.rx (.refl b) (.refl x) (.refl y) (.refl 1) (.refl 1)]

theorem reduceNlosShapes_eq (m a a' t : ℕ) (hm : 2 ≤ m) (hb : 0 < b) (hx : 0 < x) (hy : 0 < y) (r : RayShapes) (hd : r.delays = [b, x, y, m])
    (hp : r.powers = [b, x, y, m]) :
    reduceNlosShapes [b, x, y, m, 20, a, a', t] r [b, x, y] = .ok ([b, x, y, m + 4, a, a', t], [b, x, y, m + 4]) := by
  have e : min 2 m = 2 := by omega
  have e2 : 6 + (m - 2) = m + 4 := by omega
  have p : b * (x * y) ≠ 0 := by positivity
  have q : 2 * (3 * (y * (x * b))) = b * (x * y) * 6 := by ring
  simp [reduceNlosShapes, hd, hp, e, e2, reshapeLast, hb.ne, hx.ne, hy.ne, q, Nat.mul_div_cancel_left 6 (Nat.pos_of_ne_zero p), List.replicate]

/-- The rays are selected by the sizes of the topology. -/
theorem reduceNlosShapes_fit (m a a' t b5 x5 y5 : ℕ) (hm : 2 ≤ m) (hb : 0 < b) (hx : 0 < x) (hy : 0 < y) (r : RayShapes)
    (hd : r.delays = [b, x, y, m]) (hp : r.powers = [b, x, y, m]) {o : Shape × Shape}
    (h : reduceNlosShapes [b5, x5, y5, m, 20, a, a', t] r [b, x, y] = .ok o) : b5 = b ∧ x5 = x ∧ y5 = y := by
  by_contra c
  have e : min 2 m = 2 := by omega
  have p : b * (x * y) ≠ 0 := by positivity
  have q : 2 * (3 * (y * (x * b))) = b * (x * y) * 6 := by ring
  simp [reduceNlosShapes, hd, hp, e, reshapeLast, hb.ne, hx.ne, hy.ne, q, Nat.mul_div_cancel_left 6 (Nat.pos_of_ne_zero p), List.replicate, c,
    err_bind] at h

theorem step11Shapes_eq (e : Ends k b x y bt xt br yr bv n) (m t : ℕ) (hm : 2 ≤ m) (hb : 0 < b) (hx : 0 < x) (hy : 0 < y)
    (h1 : Fit bt b) (h2 : Fit xt x) (h3 : Fit br b) (h4 : Fit yr y) (h5 : Fit bv b) (h6 : FitMoving k n x y) :
    step11Shapes k [b, x, y] [b, x, y] ⟨[b, x, y, m], [b, x, y, m], [b, x, y, m, 20], [b, x, y, m, 20]⟩ t
      = .ok ([b, x, y, m + 4, k.rxAnt, k.txAnt, t], [b, x, y, m + 4]) := by
  have e' : 1 + (m + 3) = m + 4 := by omega
  simp [step11Shapes, nlosShape_eq e m t h1 h2 h3 h4 h5 h6, losCoeffShape_eq e t h1 h2 h3 h4 h5 h6, reduceNlosShapes_eq m _ _ t hm hb hx hy, e.los,
    List.replicate, e']

theorem step11Shapes_fit (e : Ends k b x y bt xt br yr bv n) (m t : ℕ) (hm : 2 ≤ m) (hb : 0 < b) (hx : 0 < x) (hy : 0 < y) {o : Shape × Shape}
    (h : step11Shapes k [b, x, y] [b, x, y] ⟨[b, x, y, m], [b, x, y, m], [b, x, y, m, 20], [b, x, y, m, 20]⟩ t = .ok o) :
    Fit bt b ∧ Fit xt x ∧ Fit br b ∧ Fit yr y ∧ Fit bv b ∧ FitMoving k n x y := by
  unfold step11Shapes at h
  rcases nlosShape_cases e m t with q | ⟨b5, x5, y5, g1, g2, g3, g4, g5, g6, q⟩
  · rw [q] at h; cases h
  rw [q, ok_bind] at h
  rcases hr : reduceNlosShapes [b5, x5, y5, m, 20, k.rxAnt, k.txAnt, t] ⟨[b, x, y, m], [b, x, y, m], [b, x, y, m, 20], [b, x, y, m, 20]⟩ [b, x, y]
    with err | o'
  · rw [hr] at h; cases h
  obtain ⟨rfl, rfl, rfl⟩ := reduceNlosShapes_fit m _ _ t b5 x5 y5 hm hb hx hy _ rfl rfl hr
  exact ⟨g1, g4, g2, g5, g3, g6⟩

/-! ### Topology and call -/

theorem size_join {b b2 b' : ℕ} (u : ℕ) (h : Join b2 b b') (hb : 0 < b2) :
    distanceShapes [b, u, 3] [b2, 1, 3] = .ok ([b', 1, u], [b, 1, u], [b', 1, u], [b', 1, u], [b, u, u]) := by
  simp [distanceShapes, h.dims, hb]

theorem dim_error {a b : ℕ} (h : dim a b = .error .invalidArgument) : dim b a = .error .invalidArgument := by
  rcases dim_cases b a with g | ⟨d, g⟩
  · exact g
  · rw [g.symm] at h; cases h

theorem updateShapes_fit (b u b2 n b3 u3 : ℕ) (hb : 0 < b2) {d : DerivedShapes} (h : updateShapes [b, u, 3] [b2, n, 3] [b3, u3] = .ok d) :
    n = 1 ∧ Fit b2 b ∧ Fit b3 b ∧ Fit u3 u := by
  unfold updateShapes at h
  rcases dim_cases b2 b with g | ⟨b', g⟩
  · simp [distanceShapes, dim_error g, err_bind] at h
  have hn : n = 1 := by
    by_contra c
    simp [distanceShapes, g.dims, hb, c, err_bind] at h
  subst hn
  rw [size_join u g hb, ok_bind] at h
  simp only at h
  rcases dim_cases u3 u with gu | ⟨u', gu⟩
  · simp [indoorShapes, dim_error gu, err_bind] at h
  rcases dim_cases b3 b with g3 | ⟨b'', g3⟩
  · simp [indoorShapes, gu.dims, dim_error g3, err_bind] at h
  rcases dim_cases b' b'' with gj | ⟨bj, gj⟩
  · simp [indoorShapes, gu.dims, g3.dims, gj, err_bind] at h
  have hj : Fit b bj := g.symm.fit.trans gj.fit
  have hi : indoorShapes [b, u, 3] [b2, 1, 3] [b3, u3] [b', 1, u] [b, 1, u] = .ok ([b'', 1, u'], [bj, 1, u'], [bj, 1, u'], [bj, 1, u']) := by
    simp [indoorShapes, gu.dims, g3.dims, gj.dims, hj.dim, hj.dim']
  rw [hi, ok_bind] at h
  simp only at h
  have hl : losShape [b, u, 3] [b2, 1, 3] [b3, u3] = .ok [b'', 1, u'] := by simp [losShape, gu.dims, g3.dims]
  rw [hl, ok_bind] at h
  by_cases c : b = b'' ∧ u = u'
  swap
  · simp [lspMeanStdShapes, c, err_bind] at h
  obtain ⟨rfl, rfl⟩ := c
  by_cases c : b' = b
  swap
  · simp [lspMeanStdShapes, g.dims, c, err_bind] at h
  subst c
  exact ⟨rfl, g.fit, g3.fit, gu.fit⟩

/-- The shapes after a call of `set_topology` that updates everything. -/
def updatedState (c : ShapeConfig) (s : SceneShapes) (lsp : Option Shape) (b u : ℕ) : ShapeState :=
  ⟨s, some (derivedShapes b u), some [b, 1, u, 7, 7], some [b, 1, 7, u, u], some [b, 1, u, c.clusters], lsp⟩

variable (c : ShapeConfig) (always : Bool) (st : ShapeState) (a : SceneShapes) (los : Bool)

theorem setTopologyShapes_eq {u b3 u3 : ℕ} {o1 o2 v : Shape}
    (hs : storeShapes st.scene a = ⟨some [b, u, 3], some [b2, 1, 3], some o1, some o2, some v, some [b3, u3]⟩)
    (hup : (a.utLoc.isSome || a.bsLoc.isSome || a.inState.isSome || los) = true) (hb : 0 < b2) (h2 : Fit b2 b) (h3 : Fit b3 b) (hu : Fit u3 u) :
    setTopologyShapes c always st a los
      = .ok (updatedState c (storeShapes st.scene a) (if always then st.lsp else some [b, 1, u]) b u) := by
  unfold setTopologyShapes
  simp only [hs, hup, if_true, updateShapes_eq b u b2 b3 u3 h2 hb h3 hu, ok_bind]
  have e1 : (derivedShapes b u).los = [b, 1, u] := rfl
  have e2 : (derivedShapes b u).utDistance = [b, u, u] := rfl
  have e3 : (derivedShapes b u).lspMean = [b, 1, u, 7] := rfl
  have e4 : (derivedShapes b u).lspStd = [b, 1, u, 7] := rfl
  simp only [e1, e2, e3, e4, crossShape_eq b u b2 b3 u3 h3 hu, spatialShape_eq b u b2 b3 u3 h3 hu, maskShape_eq c b u b2 b3 u3 h3 hu, ok_bind,
    lspShape_eq]
  cases always <;> rfl

theorem setTopologyShapes_fit {u n b3 u3 : ℕ} {o1 o2 v : Shape} {st' : ShapeState}
    (hs : storeShapes st.scene a = ⟨some [b, u, 3], some [b2, n, 3], some o1, some o2, some v, some [b3, u3]⟩)
    (hup : (a.utLoc.isSome || a.bsLoc.isSome || a.inState.isSome || los) = true) (hb : 0 < b2)
    (h : setTopologyShapes c always st a los = .ok st') : n = 1 ∧ Fit b2 b ∧ Fit b3 b ∧ Fit u3 u := by
  unfold setTopologyShapes at h
  simp only [hs, hup, if_true] at h
  rcases hd : updateShapes [b, u, 3] [b2, n, 3] [b3, u3] with e | d
  · rw [hd] at h; cases h
  · exact updateShapes_fit b u b2 n b3 u3 hb hd

/-- The inputs of the coefficient generator in a call. -/
def coeffShapes (high doppler : Bool) (b u : ℕ) (utOri bsOri vel : Shape) : CoeffShapes :=
  if c.uplink then ⟨vel, true, [b, u, 1], [b, u, 1], [b, u, 1], utOri, bsOri, [1], [b], c.utAnt, c.utDual, c.bsAnt, c.bsDual, high, doppler⟩
  else ⟨vel, false, [b, 1, u], [b, 1, u], [b, 1, u], bsOri, utOri, [1], [b], c.bsAnt, c.bsDual, c.utAnt, c.utDual, high, doppler⟩

theorem inputShapes_eq (high doppler : Bool) (u : ℕ) (hb : 0 < b2) (o1 o2 v : Shape) :
    inputShapes c high doppler (derivedShapes b u) [b, 1, u]
      ⟨[b, 1, u, c.clusters], [b, 1, u, c.clusters], [b, 1, u, c.clusters, 20], [b, 1, u, c.clusters, 20]⟩ [b2, 1, 3] o1 o2 v
    = .ok (let r := if c.uplink then [b, u, 1] else [b, 1, u]
        let m := c.clusters
        (coeffShapes c high doppler b u o1 o2 v, r, r, ⟨r ++ [m], r ++ [m], r ++ [m, 20], r ++ [m, 20]⟩, r)) := by
  rcases hup : c.uplink with _ | _ <;>
    simp [inputShapes, derivedShapes, hb, coeffShapes, hup, List.isPerm, List.range, List.range.loop]

/-- The end of a call, after the coefficients. -/
def finishShapes (b u : ℕ) (pathloss : Bool) (o : Shape × Shape) : Except Err (Shape × Shape) := do
  let h ← step12Shape c pathloss (derivedShapes b u) o.1 (if c.uplink then [b, u, 1] else [b, 1, u])
  let h ← transpose h [0, 2, 4, 1, 5, 3, 6]
  let delays ← transpose o.2 [0, 2, 1, 3]
  .ok (h, delays)

theorem callShapes_eq (pathloss high doppler : Bool) {u b3 u3 : ℕ} {o1 o2 v : Shape} {s : SceneShapes} {lsp : Option Shape} (t : ℕ)
    (hs : s = ⟨some [b, u, 3], some [b2, 1, 3], some o1, some o2, some v, some [b3, u3]⟩)
    (hl : always = true ∨ lsp = some [b, 1, u]) (hc : 1 ≤ c.clusters) (hb : 0 < b2) (h3 : Fit b3 b) (hu : Fit u3 u) :
    callShapes c always pathloss high doppler (updatedState c s lsp b u) t = (do
      let m := c.clusters
      let r := if c.uplink then [b, u, 1] else [b, 1, u]
      let o ← step11Shapes (coeffShapes c high doppler b u o1 o2 v) r r ⟨r ++ [m], r ++ [m], r ++ [m, 20], r ++ [m, 20]⟩ t
      finishShapes c b u pathloss o) := by
  subst hs
  have hl' : callLspShape always (updatedState c ⟨some [b, u, 3], some [b2, 1, 3], some o1, some o2, some v, some [b3, u3]⟩ lsp b u) [b, u, 3] [b2, 1, 3]
      [b, 1, u, 7, 7] [b, 1, 7, u, u] (derivedShapes b u) = .ok [b, 1, u] := by
    have := lspShape_eq b u b2
    unfold callLspShape updatedState
    rcases hl with rfl | rfl
    · exact this
    · cases always
      · rfl
      · exact this
  unfold callShapes
  simp only [updatedState] at hl' ⊢
  rw [hl', ok_bind, raysShapes_eq c b u b2 b3 u3 hb h3 hu hc, ok_bind, inputShapes_eq c high doppler u hb o1 o2 v, ok_bind]
  rfl

theorem finishShapes_down {c : ShapeConfig} (hc : c.uplink = false) (pathloss : Bool) (b u q r a t : ℕ) :
    finishShapes c b u pathloss ([b, 1, u, q, r, a, t], [b, 1, u, q]) = .ok ([b, u, r, 1, a, q, t], [b, u, 1, q]) := by
  cases pathloss <;> simp [finishShapes, step12Shape, derivedShapes, hc, List.isPerm, List.range, List.range.loop, List.replicate]

theorem finishShapes_up {c : ShapeConfig} (hc : c.uplink = true) (pathloss : Bool) (b u q r a t : ℕ) :
    finishShapes c b u pathloss ([b, u, 1, q, r, a, t], [b, u, 1, q]) = .ok ([b, 1, r, u, a, q, t], [b, 1, u, q]) := by
  cases pathloss <;> simp [finishShapes, step12Shape, derivedShapes, hc, List.isPerm, List.range, List.range.loop, List.replicate]

theorem coeffShapes_down {c : ShapeConfig} (hc : c.uplink = false) (high doppler : Bool) (u : ℕ) (b4 u4 b5 u5 b6 n6 : ℕ) :
    Ends (coeffShapes c high doppler b u [b4, u4, 3] [b6, n6, 3] [b5, u5, 3]) b 1 u b6 n6 b4 u4 b5 u5 := by
  constructor <;> simp [coeffShapes, hc]

theorem coeffShapes_up {c : ShapeConfig} (hc : c.uplink = true) (high doppler : Bool) (u : ℕ) (b4 u4 b5 u5 b6 n6 : ℕ) :
    Ends (coeffShapes c high doppler b u [b4, u4, 3] [b6, n6, 3] [b5, u5, 3]) b u 1 b4 u4 b6 n6 b5 u5 := by
  constructor <;> simp [coeffShapes, hc]

/-- A call succeeds exactly if all arguments stand for the sizes of the UT locations, with the documented result. -/
theorem callShapes_cases (pathloss high doppler : Bool) {u b3 u3 b4 u4 b5 u5 b6 n6 : ℕ} {s : SceneShapes} {lsp : Option Shape} (t : ℕ)
    (hs : s = ⟨some [b, u, 3], some [b2, 1, 3], some [b4, u4, 3], some [b6, n6, 3], some [b5, u5, 3], some [b3, u3]⟩)
    (hl : always = true ∨ lsp = some [b, 1, u]) (hc : 2 ≤ c.clusters) (hb : 0 < b) (hu0 : 0 < u) (hb2 : 0 < b2) (h3 : Fit b3 b) (hu : Fit u3 u) :
    (Fit b4 b ∧ Fit u4 u ∧ Fit b5 b ∧ Fit u5 u ∧ Fit b6 b ∧ n6 = 1 →
      callShapes c always pathloss high doppler (updatedState c s lsp b u) t
        = .ok (Spec.coefficients c.uplink b u c.utAnt c.bsAnt (c.clusters + 4) t, Spec.pathDelays c.uplink b u (c.clusters + 4))) ∧
    (∀ o, callShapes c always pathloss high doppler (updatedState c s lsp b u) t = .ok o →
      Fit b4 b ∧ Fit u4 u ∧ Fit b5 b ∧ Fit u5 u ∧ Fit b6 b ∧ n6 = 1) := by
  have hc1 : 1 ≤ c.clusters := by omega
  rw [callShapes_eq c always pathloss high doppler t hs hl hc1 hb2 h3 hu]
  rcases hup : c.uplink with _ | _
  · have e := coeffShapes_down (b := b) hup high doppler u b4 u4 b5 u5 b6 n6
    simp only [Bool.false_eq_true, if_false, List.cons_append, List.nil_append, Spec.coefficients, Spec.pathDelays]
    constructor
    · rintro ⟨g1, g2, g3, g4, g5, rfl⟩
      rw [step11Shapes_eq e c.clusters t hc hb one_pos hu0 g5 (.refl 1) g1 g2 g3 (by simpa [FitMoving, coeffShapes, hup] using g4), ok_bind,
        finishShapes_down hup]
      simp [coeffShapes, hup]
    · intro o h
      rcases hd : step11Shapes (coeffShapes c high doppler b u [b4, u4, 3] [b6, n6, 3] [b5, u5, 3]) [b, 1, u] [b, 1, u]
        ⟨[b, 1, u, c.clusters], [b, 1, u, c.clusters], [b, 1, u, c.clusters, 20], [b, 1, u, c.clusters, 20]⟩ t with er | o'
      · rw [hd] at h; cases h
      · obtain ⟨g5, g6, g1, g2, g3, g4⟩ := step11Shapes_fit e c.clusters t hc hb one_pos hu0 hd
        exact ⟨g1, g2, g3, by simpa [FitMoving, coeffShapes, hup] using g4, g5, by rcases g6 with g | g <;> exact g⟩
  · have e := coeffShapes_up (b := b) hup high doppler u b4 u4 b5 u5 b6 n6
    simp only [if_true, List.cons_append, List.nil_append, Spec.coefficients, Spec.pathDelays]
    constructor
    · rintro ⟨g1, g2, g3, g4, g5, rfl⟩
      rw [step11Shapes_eq e c.clusters t hc hb hu0 one_pos g1 g2 g5 (.refl 1) g3 (by simpa [FitMoving, coeffShapes, hup] using g4), ok_bind,
        finishShapes_up hup]
      simp [coeffShapes, hup]
    · intro o h
      rcases hd : step11Shapes (coeffShapes c high doppler b u [b4, u4, 3] [b6, n6, 3] [b5, u5, 3]) [b, u, 1] [b, u, 1]
        ⟨[b, u, 1, c.clusters], [b, u, 1, c.clusters], [b, u, 1, c.clusters, 20], [b, u, 1, c.clusters, 20]⟩ t with er | o'
      · rw [hd] at h; cases h
      · obtain ⟨g1, g2, g5, g6, g3, g4⟩ := step11Shapes_fit e c.clusters t hc hb hu0 one_pos hd
        exact ⟨g1, g2, g3, by simpa [FitMoving, coeffShapes, hup] using g4, g5, by rcases g6 with g | g <;> exact g⟩

/-! ### C150 -/

/-- The shape configuration of a scenario with the given numbers of antennas and polarisations. -/
def shapeConfig (config : Config) (nl nn : ℤ) (utAnt bsAnt : ℕ) (utDual bsDual : Bool) : ShapeConfig :=
  ⟨nl.toNat, nn.toNat, utAnt, utDual, bsAnt, bsDual, config.direction == "uplink"⟩

/-- Several calls of `set_topology` in a row. -/
def setTopologies (st : ShapeState) : List (SceneShapes × Bool) → Except Err ShapeState
  | [] => .ok st
  | (a, los) :: rest => do
    let st ← setTopologyShapes c always st a los
    setTopologies st rest

theorem storeShapes_part {a : SceneShapes} {b u : ℕ} (h : Spec.PartOf a b u) : storeShapes (Spec.scene b u) a = Spec.scene b u := by
  obtain ⟨h1, h2, h3, h4, h5, h6⟩ := h
  simp only [storeShapes, Spec.scene]
  congr 1 <;> grind

theorem setTopologies_eq (b u : ℕ) (hb : 0 < b) (l : Option Shape) (hl : always = true ∨ l = some [b, 1, u]) :
    ∀ calls : List (SceneShapes × Bool), (∀ a ∈ calls, Spec.PartOf a.1 b u) →
      setTopologies c always (updatedState c (Spec.scene b u) l b u) calls = .ok (updatedState c (Spec.scene b u) l b u)
  | [], _ => rfl
  | (a, los) :: rest, h => by
    have hp : storeShapes (Spec.scene b u) a = Spec.scene b u := storeShapes_part (h (a, los) (by simp))
    have e : setTopologyShapes c always (updatedState c (Spec.scene b u) l b u) a los = .ok (updatedState c (Spec.scene b u) l b u) := by
      by_cases hup : (a.utLoc.isSome || a.bsLoc.isSome || a.inState.isSome || los) = true
      · rw [setTopologyShapes_eq c always _ a los (b := b) (u := u) (b2 := b) (b3 := b) (u3 := u) (hs := hp) hup hb (.refl b) (.refl b) (.refl u)]
        have : (updatedState c (Spec.scene b u) l b u).scene = Spec.scene b u := rfl
        rw [this, hp]
        rcases hl with rfl | rfl
        · rfl
        · cases always <;> rfl
      · unfold setTopologyShapes
        have : storeShapes (updatedState c (Spec.scene b u) l b u).scene a = Spec.scene b u := hp
        simp only [this]
        simp only [Spec.scene, if_neg hup]
        rfl
    unfold setTopologies
    rw [e, ok_bind]
    exact setTopologies_eq b u hb l hl rest fun a ha => h a (by simp [ha])

/-- **C150.** For every scenario that can be constructed, all arrays, both directions and all options: if a scene for `b` examples and `u` UTs is set
in any earlier state, and then any parts of scenes of these sizes are set, every call of `set_topology` succeeds, and the channel is generated with the
documented shapes: the number of paths is the larger number of clusters plus four, for the two strongest clusters are split in three and the others kept. -/
theorem C150_shapes {cls : ScenarioClass} {args : ScenarioArgs} {config : Config} (h : mkScenario cls args = .ok config) {nl nn : ℤ}
    (hl : config.numClustersLos = .ok nl) (hn : config.numClustersNlos = .ok nn) (utAnt bsAnt : ℕ) (utDual bsDual always pathloss high doppler los : Bool)
    (st : ShapeState) (b u t : ℕ) (hb : 0 < b) (hu : 0 < u) (calls : List (SceneShapes × Bool)) (hc : ∀ a ∈ calls, Spec.PartOf a.1 b u) :
    let c := shapeConfig config nl nn utAnt bsAnt utDual bsDual
    let paths := (max nl nn).toNat + 4
    let up := config.direction == "uplink"
    ∃ st', setTopologies c always st ((Spec.scene b u, los) :: calls) = .ok st' ∧
      callShapes c always pathloss high doppler st' t = .ok (Spec.coefficients up b u utAnt bsAnt paths t, Spec.pathDelays up b u paths) := by
  intro c paths up
  obtain ⟨-, ⟨n1, e1, g1, -⟩, ⟨n2, e2, g2, -⟩, -⟩ := C04_admissible_values h
  rw [hl] at e1; injection e1 with e1; subst e1
  rw [hn] at e2; injection e2 with e2; subst e2
  have hm : c.clusters = (max nl nn).toNat := by simp only [c, shapeConfig, ShapeConfig.clusters]; omega
  have hm2 : 2 ≤ c.clusters := by rw [hm]; omega
  have hs : storeShapes st.scene (Spec.scene b u) = Spec.scene b u := rfl
  refine ⟨updatedState c (Spec.scene b u) (if always then st.lsp else some [b, 1, u]) b u, ?_, ?_⟩
  · rw [setTopologies, setTopologyShapes_eq c always st (Spec.scene b u) los (b := b) (u := u) (b2 := b) (b3 := b) (u3 := u) (hs := hs) (by rfl) hb
      (.refl b) (.refl b) (.refl u), ok_bind, hs]
    exact setTopologies_eq c always b u hb _ (by cases always <;> simp) calls hc
  · have q := (callShapes_cases c always pathloss high doppler (b := b) (u := u) (b2 := b) (b3 := b) (u3 := u) (s := Spec.scene b u) t rfl
      (lsp := if always then st.lsp else some [b, 1, u]) (by cases always <;> simp) hm2 hb hu hb (.refl b) (.refl u)).1
      ⟨.refl b, .refl u, .refl b, .refl u, .refl b, rfl⟩
    rw [q, hm]
    rfl

/-- Non-vacuity: two examples, five UTs with a dual-polarised array of eight, a satellite with six antennas, uplink; then the UTs move and turn. -/
example : ∃ cls args config nl nn, mkScenario cls args = .ok config ∧ config.numClustersLos = .ok nl ∧ config.numClustersNlos = .ok nn ∧
    Spec.PartOf { utVel := some [2, 5, 3], utOri := some [2, 5, 3] } 2 5 ∧
    Spec.coefficients true 2 5 8 6 8 14 = [2, 1, 6, 5, 8, 8, 14] ∧ Spec.pathDelays false 2 5 8 = [2, 5, 1, 8] := by
  obtain ⟨config, hc⟩ := exArgs_ok .urban true false 50 (by norm_num) (by norm_num)
  obtain ⟨-, ⟨n1, e1, -⟩, ⟨n2, e2, -⟩, -⟩ := C04_admissible_values hc
  exact ⟨_, _, config, n1, n2, hc, e1, e2, by simp [Spec.PartOf], rfl, rfl⟩

/-! ### C151 -/

/-- **C151.** Arguments that disagree about the number of examples or UTs are rejected: if a scene was set, other arguments were given afterwards and the
channel was generated, then all arguments in force have the same sizes. -/
def C151_statement : Prop :=
  ∀ (c : ShapeConfig) (always pathloss high doppler los los' : Bool) (b u t : ℕ) (a : SceneShapes) (st : ShapeState) (o : Shape × Shape),
    2 ≤ c.clusters → setTopologies c always {} [(Spec.scene b u, los), (a, los')] = .ok st →
    callShapes c always pathloss high doppler st t = .ok o → Spec.SameSizes st.scene

/-- After a scene with one UT, the locations of three UTs alone are accepted, and a channel for three UTs is generated with the orientation, the velocity
and the indoor state of the one. -/
theorem C151_violated : ¬ C151_statement := by
  intro H
  let c : ShapeConfig := ⟨4, 4, 1, false, 1, false, false⟩
  have hs : storeShapes (Spec.scene 1 1) { utLoc := some [1, 3, 3] }
      = ⟨some [1, 3, 3], some [1, 1, 3], some [1, 1, 3], some [1, 1, 3], some [1, 1, 3], some [1, 1]⟩ := rfl
  have e1 := setTopologyShapes_eq c true {} (Spec.scene 1 1) false (b := 1) (u := 1) (b2 := 1) (b3 := 1) (u3 := 1) rfl rfl one_pos (.refl 1) (.refl 1)
    (.refl 1)
  have e2 := setTopologyShapes_eq c true (updatedState c (Spec.scene 1 1) none 1 1) { utLoc := some [1, 3, 3] } false (b := 1) (u := 3) (b2 := 1) (b3 := 1)
    (u3 := 1) hs rfl one_pos (.refl 1) (.refl 1) (.inr rfl)
  have e3 := (callShapes_cases c true true true true (b := 1) (u := 3) (b2 := 1) (b3 := 1) (u3 := 1) (lsp := none) 1 hs (.inl rfl) (by decide) one_pos
    (by decide) one_pos (.refl 1) (.inr rfl)).1 ⟨.refl 1, .inr rfl, .refl 1, .inr rfl, .refl 1, rfl⟩
  have run : setTopologies c true {} [(Spec.scene 1 1, false), ({ utLoc := some [1, 3, 3] }, false)]
      = .ok (updatedState c (storeShapes (Spec.scene 1 1) { utLoc := some [1, 3, 3] }) none 1 3) := by
    unfold setTopologies
    rw [e1, ok_bind]
    unfold setTopologies
    erw [e2]
    rfl
  obtain ⟨b, u, h⟩ := H c true true true true false false 1 1 1 _ _ _ (by decide) run e3
  have h1 : some [1, 3, 3] = some [b, u, 3] := congrArg SceneShapes.utLoc h
  have h2 : some [1, 1, 3] = some [b, u, 3] := congrArg SceneShapes.utOri h
  simp at h1 h2
  omega

/-- **C151, what holds.** Which arguments are accepted, for scenes whose tensors have the documented ranks and are not empty: those of one satellite whose
other tensors have the sizes of the UT locations, or have a single example or UT, which is used for all. What is accepted also has a result for the
number of UTs of the locations. -/
theorem C151_accepted_partial (c : ShapeConfig) (always pathloss high doppler los : Bool) (st : ShapeState) (a : SceneShapes) (t : ℕ)
    {b u b2 n2 b3 u3 b4 u4 b5 u5 b6 n6 : ℕ} (hc : 2 ≤ c.clusters)
    (hs : storeShapes st.scene a = ⟨some [b, u, 3], some [b2, n2, 3], some [b4, u4, 3], some [b6, n6, 3], some [b5, u5, 3], some [b3, u3]⟩)
    (hup : a.utLoc.isSome ∨ a.bsLoc.isSome ∨ a.inState.isSome ∨ los = true) (hb : 0 < b) (hu : 0 < u) (hb2 : 0 < b2) :
    ((∃ st', setTopologyShapes c always st a los = .ok st') ↔ n2 = 1 ∧ Spec.Stands b2 b ∧ Spec.Stands b3 b ∧ Spec.Stands u3 u) ∧
    ∀ st', setTopologyShapes c always st a los = .ok st' →
      ((∃ o, callShapes c always pathloss high doppler st' t = .ok o) ↔
        n6 = 1 ∧ Spec.Stands b6 b ∧ Spec.Stands b4 b ∧ Spec.Stands u4 u ∧ Spec.Stands b5 b ∧ Spec.Stands u5 u) ∧
      ∀ o, callShapes c always pathloss high doppler st' t = .ok o →
        o = (Spec.coefficients c.uplink b u c.utAnt c.bsAnt (c.clusters + 4) t, Spec.pathDelays c.uplink b u (c.clusters + 4)) := by
  have hup' : (a.utLoc.isSome || a.bsLoc.isSome || a.inState.isSome || los) = true := by simpa [or_assoc] using hup
  constructor
  · constructor
    · rintro ⟨st', h⟩
      exact setTopologyShapes_fit c always st a los hs hup' hb2 h
    · rintro ⟨rfl, g1, g2, g3⟩
      exact ⟨_, setTopologyShapes_eq c always st a los hs hup' hb2 g1 g2 g3⟩
  · intro st' h
    obtain ⟨rfl, g1, g2, g3⟩ := setTopologyShapes_fit c always st a los hs hup' hb2 h
    rw [setTopologyShapes_eq c always st a los hs hup' hb2 g1 g2 g3] at h
    injection h with h
    subst h
    obtain ⟨q1, q2⟩ := callShapes_cases c always pathloss high doppler t (lsp := if always then st.lsp else some [b, 1, u]) hs
      (by cases always <;> simp) hc hb hu hb2 g2 g3
    refine ⟨⟨?_, ?_⟩, ?_⟩
    · rintro ⟨o, h⟩
      obtain ⟨r1, r2, r3, r4, r5, r6⟩ := q2 o h
      exact ⟨r6, r5, r1, r2, r3, r4⟩
    · rintro ⟨r6, r5, r1, r2, r3, r4⟩
      exact ⟨_, q1 ⟨r1, r2, r3, r4, r5, r6⟩⟩
    · intro o h
      have := q1 (q2 o h)
      rw [this] at h
      injection h with h
      exact h.symm

/-- With at least two examples and UTs in every tensor there is nothing to repeat: only equal sizes are accepted. -/
theorem C151_large_partial (c : ShapeConfig) (always pathloss high doppler los : Bool) (st st' : ShapeState) (a : SceneShapes) (t : ℕ)
    {b u b2 n2 b3 u3 b4 u4 b5 u5 b6 n6 : ℕ} {o : Shape × Shape} (hc : 2 ≤ c.clusters)
    (hs : storeShapes st.scene a = ⟨some [b, u, 3], some [b2, n2, 3], some [b4, u4, 3], some [b6, n6, 3], some [b5, u5, 3], some [b3, u3]⟩)
    (hup : a.utLoc.isSome ∨ a.bsLoc.isSome ∨ a.inState.isSome ∨ los = true)
    (hsizes : 2 ≤ b ∧ 2 ≤ u ∧ 2 ≤ b2 ∧ 2 ≤ b3 ∧ 2 ≤ u3 ∧ 2 ≤ b4 ∧ 2 ≤ u4 ∧ 2 ≤ b5 ∧ 2 ≤ u5 ∧ 2 ≤ b6)
    (h : setTopologyShapes c always st a los = .ok st') (ho : callShapes c always pathloss high doppler st' t = .ok o) :
    Spec.SameSizes (storeShapes st.scene a) := by
  obtain ⟨h1, h2⟩ := C151_accepted_partial c always pathloss high doppler los st a t hc hs hup (by omega) (by omega) (by omega)
  obtain ⟨e1, e2, e3, e4⟩ := h1.1 ⟨st', h⟩
  obtain ⟨f1, f2, f3, f4, f5, f6⟩ := (h2 st' h).1.1 ⟨o, ho⟩
  unfold Spec.Stands at *
  obtain rfl : b2 = b := by omega
  obtain rfl : b3 = b2 := by omega
  obtain rfl : b4 = b3 := by omega
  obtain rfl : b5 = b4 := by omega
  obtain rfl : b6 = b5 := by omega
  obtain rfl : u3 = u := by omega
  obtain rfl : u4 = u3 := by omega
  obtain rfl : u5 = u4 := by omega
  subst e1 f1
  exact ⟨b6, u5, hs⟩

/-- Non-vacuity: a scene of two examples and five UTs meets the hypotheses on sizes; and one location of the satellite for both examples stands. -/
example : storeShapes ({} : ShapeState).scene (Spec.scene 2 5)
      = ⟨some [2, 5, 3], some [2, 1, 3], some [2, 5, 3], some [2, 1, 3], some [2, 5, 3], some [2, 5]⟩ ∧ Spec.Stands 1 2 ∧ ¬ Spec.Stands 3 2 :=
  ⟨rfl, .inr rfl, by unfold Spec.Stands; omega⟩

end OpenNTN
