import Verif.Model.Bond
import Verif.Model.NaturalCubic
open Qlab
instance : FromInt Float := ⟨fun n => some (Float.ofInt n)⟩
instance : HasExp Float := ⟨Float.exp⟩
instance : Zero Float := ⟨0.0⟩
instance : One Float := ⟨1.0⟩
def dd (y : Int) (m d : Nat) : Date := match fromYmdOpt y m d with | some x => x | none => ⟨2023,1,1,by decide⟩
def mats : List Date := [dd 2023 10 11,dd 2024 1 10,dd 2024 4 10,dd 2024 10 10,dd 2025 10 10,dd 2026 10 12,dd 2028 10 10,dd 2030 10 10,dd 2033 10 10,dd 2038 10 11,dd 2043 10 12,dd 2053 10 10]
def ys : List Float := [0.02, 0.0219, 0.0237, 0.0267, 0.0312, 0.0343, 0.0378, 0.0393, 0.04, 0.0401, 0.0401, 0.04]
#eval match (Bond.new "b" (dd 2023 5 8) (dd 2023 11 7) (dd 2042 5 7) (dd 2042 11 7) .sa (0.062:Float) 1000.0) with
  | .ok (some b) => match YieldCurve.new DayCount.act365 (Interpolator.naturalCubic Float) (dd 2023 10 10) mats ys with
    | .ok (.ok c) => match b.discountedValue DayCount.act365 (dd 2023 10 10) c with
      | .ok (.ok v) => s!"{v} {v == 1314.5577192000126} {(v - 1314.5577192000126)*1e13}"
      | _ => "pv fail"
    | _ => "curve fail"
  | _ => "bond fail"
