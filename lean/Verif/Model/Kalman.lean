import Verif.Types
/-! Model of `/repo/Src/KalmanFilter.hpp` for every state dimension `n` and measurement dimension `p`. -/
namespace Verif
variable {α : Type} [Add α] [Sub α] [Mul α] [Neg α] [Div α] [Zero α] [One α] [Fl α]

/-- Members of `KalmanFilter` in use, KalmanFilter.hpp:34,66-75. -/
structure Kf (n : Nat) (α : Type) where
  Xd : Fin n → α
  P : Matrix (Fin n) (Fin n) α
  ak : α
  rejectCnt : BitVec 32

namespace Kf
/-- Constructor, KalmanFilter.hpp:88-92 and member initialisers :73-75. -/
def new (n : Nat) : Kf n α := { Xd := fun _ => 0, P := fun _ _ => 0, ak := 0, rejectCnt := 0 }
/-- Constructor with state and covariance, KalmanFilter.hpp:138-140. -/
def ofState {n : Nat} (xd : Fin n → α) (P : Matrix (Fin n) (Fin n) α) : Kf n α :=
  { Xd := xd, P := P, ak := 0, rejectCnt := 0 }
/-- `Td`, KalmanFilter.hpp:74. -/
def Td : α := Fl.lit (6 / 10000)

/-- `Reset`, KalmanFilter.hpp:83-86. -/
def reset {n : Nat} (k : Kf n α) : Kf n α := { k with Xd := fun _ => 0 }

/-- The gain `K`, KalmanFilter.hpp:103,111. -/
def gain {n p : Nat} (k : Kf n α) (H : Matrix (Fin p) (Fin n) α) (R : Matrix (Fin p) (Fin p) α) :
    Matrix (Fin n) (Fin p) α :=
  mmul (mmul k.P H.transpose) (Fl.minv (mmul (mmul H k.P) H.transpose + R))

/-- `Update`, KalmanFilter.hpp:98-115. -/
def update {n p : Nat} (k : Kf n α) (H : Matrix (Fin p) (Fin n) α) (obs : Fin p → α)
    (R : Matrix (Fin p) (Fin p) α) : Kf n α :=
  let Cvk := Fl.minv (mmul (mmul H k.P) H.transpose + R)
  let q := sumF fun i => mvec (Fl.minv Cvk).transpose obs i * obs i
  let ak := Fl.sqrt (q * q)
  let rej := if Fl.lt Td ak && decide (k.rejectCnt.toNat < 3) then k.rejectCnt + 1 else k.rejectCnt
  let K := mmul (mmul k.P H.transpose) Cvk
  let temp := eyeM n - mmul K H
  { Xd := mvec K obs
    P := mmul (mmul temp k.P) temp.transpose + mmul (mmul K R) K.transpose
    ak := ak
    rejectCnt := let _ := rej; 0 }

/-- `Predict`, KalmanFilter.hpp:132-136. -/
def predict {n : Nat} (k : Kf n α) (phi Q : Matrix (Fin n) (Fin n) α) : Kf n α :=
  { k with Xd := mvec phi k.Xd, P := mmul (mmul phi k.P) phi.transpose + Q }
end Kf
end Verif
