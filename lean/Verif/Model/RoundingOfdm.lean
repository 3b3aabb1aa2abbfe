import Verif.Model.RoundingRays
import Verif.Model.Rounding

/-
Conversions of an impulse response to frequency and to time, evaluated operation by operation in the order of the code.
-/
namespace OpenNTN

/-- `cir_to_ofdm_channel`, utils.py 237-243, without normalization, for a pair of antennas and a time: `s` is a response at subcarrier `k` that the code may return;
`E x` is `tf.exp(tf.complex(0, x))`. -/
def Arith.IsResponse (A : Arith) (E : ℝ → ℂ) (k : ℤ) (spacing : ℝ) {P : ℕ} (a : Fin P → ℂ) (tau : Fin P → ℝ) (s : ℂ) : Prop :=
  A.IsRaySum ((List.finRange P).map fun p => A.cmul (a p) (E (A.ofdmPhase (A.subcarrier k spacing) (tau p)))) s

/-- `cir_to_time_channel`, utils.py 318-331, without normalization, for a pair of antennas and a time: `s` is a tap of lag `l` that the code may return; `S` is
`tf.experimental.numpy.sinc`. -/
def Arith.IsTap (A : Arith) (S : ℝ → ℝ) (bandwidth : ℝ) (l : ℤ) {P : ℕ} (a : Fin P → ℂ) (tau : Fin P → ℝ) (s : ℂ) : Prop :=
  A.IsRaySum ((List.finRange P).map fun p => A.cmul (a p) (S (A.tapArgument bandwidth l (tau p)) : ℂ)) s

end OpenNTN
