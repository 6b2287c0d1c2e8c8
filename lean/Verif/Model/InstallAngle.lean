import Verif.Model.Convert
/-! Model of the estimation loop of `/repo/Tools/ObtainInstallAngle.cpp`. The program itself does not compile (`NavReader` is
commented out in `FileIO.h:237-250`); its records are a list here. Simplification: `H` is an Eigen block of a temporary
(line 46) and would be read after the temporary is gone; the model keeps the value it had. -/
namespace Verif.InstallAngle
open Verif.Convert
variable {α : Type} [Add α] [Sub α] [Mul α] [Neg α] [Div α] [Zero α] [One α] [Fl α]

/-- The variables of the loop, ObtainInstallAngle.cpp:35,38. -/
structure St (α : Type) where
  P : M3 α
  theta : V3 α

/-- ObtainInstallAngle.cpp:35,38: `P = 0.4 I`, `theta = 0`. -/
def st0 : St α := ⟨sm (Fl.lit (2 / 5)) (eyeM 3), zero3⟩
/-- `R`, ObtainInstallAngle.cpp:37. -/
def noise : Matrix (Fin 2) (Fin 2) α := sm (Fl.lit 100) (eyeM 2)

/-- The velocity in the axes of the IMU, ObtainInstallAngle.cpp:43-44. -/
def bodyVel (n : NavOutput α) : V3 α :=
  mvec (eulerToDcm (v3 (n.atti 0 * deg) (n.atti 1 * deg) (n.atti 2 * deg))).transpose (v3 (n.vn 0) (n.vn 1) (n.vn 2))

/-- `H`, ObtainInstallAngle.cpp:46: the lower two rows. -/
def hOf (vb : V3 α) : Matrix (Fin 2) (Fin 3) α := fun i j => skew (-vb) i.succ j
/-- `Y`, ObtainInstallAngle.cpp:47. -/
def yOf (vb : V3 α) : Fin 2 → α := fun i => -(vb i.succ)

/-- One pass of the loop, ObtainInstallAngle.cpp:46-53. -/
def step (s : St α) (vb : V3 α) : St α :=
  let H := hOf vb
  let hphr := mmul (mmul H s.P) H.transpose + noise
  let K := mmul (mmul s.P H.transpose) (Fl.minv hphr)
  let ikh := eyeM 3 - mmul K H
  { P := mmul (mmul ikh s.P) ikh.transpose + mmul (mmul K noise) K.transpose
    theta := s.theta + mvec K (yOf vb - mvec H s.theta) }

/-- The loop over the records, ObtainInstallAngle.cpp:41-55. -/
def run (ns : List (NavOutput α)) : St α := ns.foldl (fun s n => step s (bodyVel n)) st0
end Verif.InstallAngle
