import Verif.Model.Channel
import Verif.Spec.Topology

namespace OpenNTN.Spec

variable {B N U : ℕ}

/-- The operation is a `set_topology` call that returned. -/
def ChanEvent.succeeded : ChanEvent B N U → Prop
  | .topology _ _ _ (.ok _) => True
  | _ => False

/-- The operation is a `set_topology` call that passes UT locations, BS locations, indoor states or a LoS request, and returned. -/
def ChanEvent.redraws : ChanEvent B N U → Prop
  | .topology a _ _ (.ok _) => a.utLoc ≠ none ∨ a.bsLoc ≠ none ∨ a.inState ≠ none ∨ a.los ≠ none
  | _ => False

/-- `l` are large scale parameters generated for the topology `t` from the normal numbers `z`: on every BS the sample of
`LSPGenerator` (C26, C27) for the LoS states, indoor states and positions of `t`. -/
def IsSampleOf (c : Config) (t : TopoState B N U) (z : PerLink B N U (Fin 7 → ℝ)) (l : PerLink B N U LspValues) : Prop :=
  ∃ los indoor ut, t.los = some los ∧ t.inState = some indoor ∧ t.utLoc = some ut ∧ ∀ b n, ∃ near,
    ∃ S : LspSetup c (los b n) (indoor b) (fun u => (ut b u).x) (fun u => (ut b u).y) near, ∀ u, l b n u = S.sample (z b n) u

end OpenNTN.Spec
