import Verif.Model.SW
import Verif.Model.Streamer

/-! # Specification side of C85, C86 (wind stress, electron diffusion) -/
namespace Verif.Spec

/-- Length of a plane vector. -/
noncomputable def len2 (x y : ℝ) : ℝ := Real.sqrt (x ^ 2 + y ^ 2)

/-- Drag of a wind of speed `s`: density of air 1.28, coefficient `(0.75 + 0.067 s) 10⁻³`. -/
noncomputable def dragCoefficient (s : ℝ) : ℝ := 1.28 * (0.75 + 0.067 * s) * 1e-3

end Verif.Spec
