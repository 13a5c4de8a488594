import Verif.Props.EasyPlan

/-! # A plan for a day of ANM6Easy with small costs, checked with rational numbers -/

namespace Anm

open Spec

/-- A bound on the line losses (p.u.) from bounds on the active powers at the buses 3, 4 and 5, at 4 and 5 together and at all three, if
the voltages are at least 0.9 and there is no reactive power. -/
def lossOf {F : Type} [Field F] (a3 a4 a5 a45 a345 : F) : F :=
  let b3 := (a3 + 2/100000) / (9/10)
  let b4 := (a4 + 2/100000) / (9/10)
  let b5 := (a5 + 2/100000) / (9/10)
  let n45 := (a45 + 4/100000 + 683/10000 * b4 ^ 2 + 527/10000 * b5 ^ 2) / (9/10)
  let n345 := (a345 + 6/100000 + 693/10000 * b3 ^ 2 + 683/10000 * b4 ^ 2 + 527/10000 * b5 ^ 2 + 373/10000 * n45 ^ 2) / (9/10)
  36/10000 * n345 ^ 2 + 3/100 * n45 ^ 2 + 307/10000 * b3 ^ 2 + 303/10000 * b4 ^ 2 + 159/10000 * b5 ^ 2

theorem lossOf_cast (a3 a4 a5 a45 a345 : ℚ) : ((lossOf a3 a4 a5 a45 a345 : ℚ) : ℝ) = lossOf (a3 : ℝ) a4 a5 a45 a345 := by
  simp only [lossOf]
  push_cast
  rfl

/-- A bound on what a step costs: losses, curtailment and what the storage unit takes, and tolerances. -/
def stepCost (l1 l3 l5 m2 m4 p2 p4 p6 : ℚ) : ℚ :=
  1/4 * (lossOf |(l1 + p2) / 100| |(l3 + p4) / 100| |(l5 + p6) / 100| |(l3 + p4 + (l5 + p6)) / 100| |(l1 + p2 + (l3 + p4) + (l5 + p6)) / 100| +
    5/1000000 + ((min m2 30 - p2) / 100 + (m4 - p4) / 100) - p6 / 100) + 5/400000

/-! ### The plan -/

/-- What the storage unit supplies (MW): it meets the demand that the line cannot meet, and is charged around noon and at night. -/
def goodStorage (t : ℕ) : ℚ :=
  let l := - demandAt 2 t
  if t ≤ 23 ∨ 92 ≤ t then -4323/1000 else if t = 24 then -9701/2250
  else if 51 ≤ t ∧ t ≤ 64 then -8357/1000 else if t = 65 then -37609/4500
  else if l = 25 then 3537/500 else if l = 175/8 then 99/25 else if l = 75/4 then 207/250 else 0

/-- The generators produce what they can, up to 17.98 MW more than the demand at the same bus; the reactive power of each load is
compensated for. -/
def good (t : ℕ) : ℚ × ℚ × ℚ × ℚ × ℚ × ℚ :=
  (min (min (potAt 0 t) 30) (1798/100 - demandAt 0 t), min (potAt 1 t) (1798/100 - demandAt 1 t), - demandAt 0 t / 5, - demandAt 1 t / 5,
    goodStorage t, - demandAt 2 t / 5)

/-- The currents that belong to the plan. -/
def goodCurs : List QCur :=
  List.replicate 24 (micro (-10003) (-223) 178061 6560 (-43086) (-1027)) ++
  [micro (-10003) (-224) 178060 6564 (-42972) (-1025)] ++
  [micro (-10003) (-245) 177984 6992 (-31127) (-836)] ++
  [micro (-10004) (-188) 178185 5865 (-62353) (-1180)] ++
  [micro (-10005) (-131) 178391 4735 (-93679) (-1027)] ++
  [micro (-10007) (-74) 178601 3600 (-125106) (-372)] ++
  [micro (-10008) 54 140807 503 (-156804) 2026] ++
  [micro (-10011) 177 97542 (-1248) (-180297) 5024] ++
  [micro (-10012) 257 53918 (-1320) (-180465) 6663] ++
  List.replicate 13 (micro (-10014) 339 10059 (-365) (-180827) 8333) ++
  [micro 26252 (-532) 34896 (-800) (-180563) 6175] ++
  [micro 79027 (-235) 58484 (-405) (-180498) 3540] ++
  [micro 131582 2440 81925 1129 (-157066) (-135)] ++
  [micro 178771 7201 105219 3703 (-125362) (-2814)] ++
  [micro 178715 9000 128392 6149 (-93798) (-3312)] ++
  [micro 178669 10797 151440 9173 (-62384) (-3004)] ++
  [micro 178726 9845 174915 9806 (-114850) (-4544)] ++
  List.replicate 13 (micro 178687 10989 178184 11301 (-83443) (-4030)) ++
  [micro 178726 9845 174915 9806 (-114856) (-4544)] ++
  [micro 178669 10797 151440 9173 (-62384) (-3004)] ++
  [micro 178715 9000 128392 6149 (-93798) (-3312)] ++
  [micro 178771 7201 105219 3703 (-125362) (-2814)] ++
  [micro 131582 2440 81925 1129 (-157066) (-135)] ++
  [micro 79027 (-235) 58484 (-405) (-180498) 3540] ++
  [micro 26252 (-532) 34896 (-800) (-180563) 6175] ++
  List.replicate 13 (micro (-10014) 339 10059 (-365) (-180827) 8333) ++
  [micro (-10012) 257 53918 (-1320) (-180465) 6663] ++
  [micro (-10011) 177 97542 (-1248) (-180297) 5024] ++
  [micro (-10008) 54 140807 503 (-156804) 2026] ++
  [micro (-10007) (-74) 178601 3600 (-125106) (-372)] ++
  [micro (-10005) (-131) 178391 4735 (-93679) (-1027)] ++
  [micro (-10004) (-188) 178185 5865 (-62353) (-1180)] ++
  [micro (-10003) (-245) 177984 6992 (-31127) (-836)] ++
  List.replicate 4 (micro (-10003) (-223) 178061 6560 (-43086) (-1027))

def goodCur (t : ℕ) : QCur := goodCurs.getD t flatCur

/-- The energy under the plan (MWh), from 0 MWh at 12:15 pm. -/
def goodEnergy (t : ℕ) : ℚ := ([38907/8000, 116721/20000, 272349/40000, 38907/5000, 350163/40000, 38907/4000, 427977/40000, 116721/10000, 505791/40000, 272349/20000,
   116721/8000, 38907/2500, 661419/40000, 350163/20000, 739233/40000, 38907/2000, 817047/40000, 427977/20000, 894861/40000, 116721/5000,
   38907/1600, 505791/20000, 1050489/40000, 272349/10000, 5641/200, 5641/200, 5641/200, 5641/200, 5641/200, 5641/200, 1119/40, 215/8,
   2491/100, 4589/200, 1049/50, 3803/200, 341/20, 3017/200, 328/25, 2231/200, 919/100, 289/40, 263/50, 659/200, 133/100, 23/100, 0, 0, 0, 0,
   0, 75213/40000, 75213/20000, 225639/40000, 75213/10000, 75213/8000, 225639/20000, 526491/40000, 75213/5000, 676917/40000, 75213/4000,
   827343/40000, 225639/10000, 977769/40000, 526491/20000, 5641/200, 5641/200, 5641/200, 5641/200, 5641/200, 1119/40, 215/8, 2491/100,
   4589/200, 1049/50, 3803/200, 341/20, 3017/200, 328/25, 2231/200, 919/100, 289/40, 263/50, 659/200, 133/100, 23/100, 0, 0, 0, 0, 0, 0,
   38907/40000, 38907/20000, 116721/40000, 38907/10000] : List ℚ).getD t 0

/-- Bounds on what the steps cost, in millionths. -/
def goodCosts : List ℤ :=
  [56383, 56383, 56383, 56383, 56383, 56383, 56383, 56383, 56383, 56383, 56383, 56383, 56383, 56383, 56383, 56383, 56383, 56383, 56383, 56383,
   56383, 56383, 56383, 56383, 56355, 34670, 23660, 12679, 1729, 326, -1732, -9528, -17202, -17202, -17202, -17202, -17202, -17202, -17202,
   -17202, -17202, -17202, -17202, -17202, -17202, -9495, -1664, 421, 1836, 15116, 23896, 45788, 51830, 51830, 51830, 51830, 51830, 51830,
   51830, 51830, 51830, 51830, 51830, 51830, 51830, 45790, 23896, 15116, 1836, 421, -1664, -9495, -17202, -17202, -17202, -17202, -17202,
   -17202, -17202, -17202, -17202, -17202, -17202, -17202, -17202, -9528, -1732, 326, 1729, 12679, 23660, 34670, 56383, 56383, 56383, 56383]

/-- A bound on what the step to the time `t` costs. -/
def goodCost (t : ℕ) : ℚ := goodCosts.getD t 0 / 1000000

theorem good_ok : DayPlan good goodCur goodEnergy := by decide +kernel

/-- Under the plan the storage unit is empty from 11:30 am to 12:30 pm and from 9:30 to 10:45 pm. -/
theorem good_empty : ∀ t < 96, (46 ≤ t ∧ t ≤ 50) ∨ (86 ≤ t ∧ t ≤ 91) → goodEnergy t = 0 := by decide +kernel

theorem good_cost : ∀ t < 96, -1 ≤ goodCost t ∧
    stepCost (demandAt 0 t) (demandAt 1 t) (demandAt 2 t) (potAt 0 t) (potAt 1 t) (good t).1 (good t).2.1 (good t).2.2.2.2.1 ≤ goodCost t := by
  decide +kernel

/-- The discounted sum of the costs `f` of `n` steps after the time `t`. -/
def daySum (f : ℕ → ℚ) (γ : ℚ) (t : ℕ) : ℕ → ℚ
  | 0 => 0
  | n + 1 => f ((t + 1) % 96) + γ * daySum f γ ((t + 1) % 96) n

/-- The discounted sum of the costs of the plan. -/
def goodSum (γ : ℚ) (t n : ℕ) : ℚ := daySum goodCost γ t n

theorem goodSum_day : ∀ t < 96, goodSum 1 t 96 ≤ 2138/1000 := by decide +kernel
theorem goodSum_discounted : ∀ t < 96, (46 ≤ t ∧ t ≤ 50) ∨ (86 ≤ t ∧ t ≤ 91) → goodSum (995/1000) t 96 ≤ if t ≤ 50 then 17796/10000 else 1897/1000 := by
  decide +kernel

end Anm
