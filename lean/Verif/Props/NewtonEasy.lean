import Verif.Props.RadialLoop
import Verif.Props.PlayTransition

/-!
# C115: the load flow of ANM6 converges

With exactly solved linear systems the load flow of ANM6 converges whenever no bus exchanges more than 20 MVA.
-/

namespace Anm

open Spec Complex ComplexConjugate Radial

noncomputable section

/-- The impedances of the lines of ANM6. -/
def easyZ : Fin 5 → ℂ := ![⟨36/10000, 1834/10000⟩, ⟨3/100, 22/1000⟩, ⟨307/10000, 621/10000⟩, ⟨303/10000, 611/10000⟩, ⟨159/10000, 502/10000⟩]

theorem easyZ_ne (l : Fin 5) : easyZ l ≠ 0 := by
  intro h
  have h1 := congrArg Complex.re h
  revert h1
  fin_cases l <;> simp [easyZ]

/-- The currents through the lines of ANM6, from the voltages. -/
theorem easy_line_volts (x : Fin 6 → ℂ) : List.Forall₂ (fun l j => l.iFrom (atId x l.fBus) (atId x l.tBus) = -j ∧ l.iTo (atId x l.fBus) (atId x l.tBus) = j) easyLines
      [(x 1 - x 0) / easyZ 0, (x 2 - x 1) / easyZ 1, (x 3 - x 1) / easyZ 2, (x 4 - x 2) / easyZ 3, (x 5 - x 2) / easyZ 4] := by
  have a0 : atId x 0 = x 0 := rfl
  have a1 : atId x 1 = x 1 := rfl
  have a2 : atId x 2 = x 2 := rfl
  have a3 : atId x 3 = x 3 := rfl
  have a4 : atId x 4 = x 4 := rfl
  have a5 : atId x 5 = x 5 := rfl
  refine .cons ?_ (.cons ?_ (.cons ?_ (.cons ?_ (.cons ?_ .nil)))) <;> refine plain_currents rfl rfl rfl ?_ ?_
  any_goals (intro h; have := congrArg Complex.re h; norm_num at this)
  all_goals simp only [a0, a1, a2, a3, a4, a5]
  · exact (by have := easyZ_ne 0; field_simp; ring : x 1 = x 0 + easyZ 0 * ((x 1 - x 0) / easyZ 0))
  · exact (by have := easyZ_ne 1; field_simp; ring : x 2 = x 1 + easyZ 1 * ((x 2 - x 1) / easyZ 1))
  · exact (by have := easyZ_ne 2; field_simp; ring : x 3 = x 1 + easyZ 2 * ((x 3 - x 1) / easyZ 2))
  · exact (by have := easyZ_ne 3; field_simp; ring : x 4 = x 2 + easyZ 3 * ((x 4 - x 2) / easyZ 3))
  · exact (by have := easyZ_ne 4; field_simp; ring : x 5 = x 2 + easyZ 4 * ((x 5 - x 2) / easyZ 4))

/-- The currents from the buses of ANM6 into the network, from the voltages. -/
theorem easy_currents (x : Fin 6 → ℂ) : ∀ k : Fin 6, NR.curr (ymat 5 easyLines) x k =
    ![-((x 1 - x 0) / easyZ 0), (x 1 - x 0) / easyZ 0 - (x 2 - x 1) / easyZ 1 - (x 3 - x 1) / easyZ 2,
      (x 2 - x 1) / easyZ 1 - (x 4 - x 2) / easyZ 3 - (x 5 - x 2) / easyZ 4, (x 3 - x 1) / easyZ 2, (x 4 - x 2) / easyZ 3,
      (x 5 - x 2) / easyZ 4] k := by
  have h := easy_line_volts x
  intro k
  rw [curr_eq_leaving (m := 5) easyLines_good.1 easyLines_good.2]
  unfold easyLines at h ⊢
  simp only [List.forall₂_cons, List.forall₂_nil_right_iff, and_true] at h
  obtain ⟨⟨a1, b1⟩, ⟨a2, b2⟩, ⟨a3, b3⟩, ⟨a4, b4⟩, ⟨a5, b5⟩⟩ := h
  simp only [leaving, List.map_cons, List.map_nil, List.sum_cons, List.sum_nil, a1, b1, a2, b2, a3, b3, a4, b4, a5, b5]
  fin_cases k <;> simp <;> ring

/-- ANM6 is a radial network. -/
def easyRadial : Radial (ymat 5 easyLines) where
  z := easyZ
  par := ![0, 1, 1, 2, 2]
  path := ![{0}, {0, 1}, {0, 2}, {0, 1, 3}, {0, 1, 4}]
  sub := ![{0, 1, 2, 3, 4}, {1, 3, 4}, {2}, {3}, {4}]
  kids := ![{1, 2}, {3, 4}, ∅, ∅, ∅]
  z_ne := easyZ_ne
  along x k := by
    fin_cases k <;> simp <;> first | rfl | ring
  subtree x l := by
    fin_cases l <;> simp [easy_currents] <;> ring
  own c k := by
    fin_cases k <;> simp
    ring

/-! ### Tables of bounds, one for each of four ranges of powers -/

/-- Bounds on the powers of the buses. -/
def powA : Fin 5 → ℚ := ![0, 0, 1/5, 1/5, 1/5]

/-- Bounds at the flat start. -/
def tabA0 : BRow 5 :=
  ⟨![3/5, 2/5, 1/5, 1/5, 1/5], ![1, 1, 1, 1, 1], ![0, 0, 1/5, 1/5, 1/5], ![0, 0, 0, 0, 0], ![0, 0, 0, 0, 0], ![1, 1, 1, 1, 1], ![11033/100000, 783/6250, 12421/100000, 1737/12500, 849/6250]⟩

/-- Bounds at the iterations. -/
def tabA : List (List (Fin 5 → ℚ) × BRow 5) :=
  [([],
    ⟨![4131/20000, 2991/20000, 6941/100000, 991/12500, 1543/20000], ![2181/2500, 2131/2500, 8539/10000, 521/625, 419/500], ![42551/100000, 15299/50000, 6941/100000, 991/12500, 1543/20000], ![4597/5000, 3141/5000, 3037/10000, 3193/10000, 3159/10000], ![266/625, 153/500, 3037/10000, 3193/10000, 3159/10000], ![1169/1000, 1193/1000, 119/100, 607/500, 1209/1000], ![737/10000, 8579/100000, 8299/100000, 2419/25000, 9399/100000]⟩),
   ([![2069/2500, 2009/2500, 323/400, 7821/10000, 7873/10000], ![1669/2000, 1623/2000, 8151/10000, 7909/10000, 3979/5000]],
    ⟨![7211/50000, 10731/100000, 3207/100000, 2267/50000, 2131/50000], ![1669/2000, 1623/2000, 8151/10000, 7909/10000, 3979/5000], ![709/2500, 19527/100000, 3207/100000, 2267/50000, 2131/50000], ![4469/5000, 1529/2500, 111/400, 2983/10000, 147/500], ![709/2500, 1953/10000, 111/400, 2983/10000, 147/500], ![233/200, 1187/1000, 148/125, 151/125, 1203/1000], ![4887/100000, 1149/20000, 1351/25000, 6453/100000, 6263/100000]⟩),
   ([![1683/2000, 1639/2000, 4113/5000, 7997/10000, 2011/2500], ![4263/5000, 4161/5000, 8349/10000, 8139/10000, 4091/5000]],
    ⟨![1531/25000, 4691/100000, 571/50000, 937/50000, 1727/100000], ![4263/5000, 4161/5000, 8349/10000, 8139/10000, 4091/5000], ![11957/100000, 2073/25000, 571/50000, 937/50000, 1727/100000], ![791/1000, 5371/10000, 251/1000, 529/2000, 1309/5000], ![299/2500, 83/1000, 251/1000, 529/2000, 1309/5000], ![573/500, 583/500, 1163/1000, 148/125, 1179/1000], ![177/10000, 2087/100000, 1943/100000, 2343/100000, 71/3125]⟩),
   ([![4307/5000, 1053/1250, 8443/10000, 33/40, 8291/10000], ![4331/5000, 8479/10000, 8497/10000, 1039/1250, 8351/10000]],
    ⟨![85469/10000000, 12821/2000000, 13653/10000000, 12159/5000000, 22159/10000000], ![4331/5000, 8479/10000, 8497/10000, 1039/1250, 8351/10000], ![163227/10000000, 55291/5000000, 13653/10000000, 12159/5000000, 22159/10000000], ![7241/10000, 2433/5000, 148/625, 2431/10000, 1209/5000], ![16323/1000000, 11059/1000000, 236743/1000000, 30381/125000, 241709/1000000], ![1133/1000, 144/125, 23/20, 146/125, 291/250], ![2251/1000000, 1323/500000, 1227/500000, 1479/500000, 287/100000]⟩),
   ([![8683/10000, 8503/10000, 8519/10000, 4169/5000, 1047/1250]],
    ⟨![281/2000000, 8/78125, 51/2500000, 187/5000000, 339/10000000], ![8683/10000, 8503/10000, 8519/10000, 4169/5000, 1047/1250], ![2633/10000000, 1737/10000000, 51/2500000, 187/5000000, 339/10000000], ![446/625, 1197/2500, 587/2500, 6/25, 2389/10000], ![33/125000, 87/500000, 23479/100000, 7497/31250, 59703/250000], ![1131/1000, 1149/1000, 287/250, 583/500, 581/500], ![37/1000000, 43/1000000, 1/25000, 3/62500, 47/1000000]⟩),
   ([],
    ⟨![37/1000000000, 27/1000000000, 3/500000000, 1/100000000, 9/1000000000], ![4341/5000, 4251/5000, 4259/5000, 8337/10000, 67/80], ![7/100000000, 23/500000000, 3/500000000, 1/100000000, 9/1000000000], ![1427/2000, 1197/2500, 587/2500, 2399/10000, 2389/10000], ![7/100000000, 23/500000000, 234796907/1000000000, 239894457/1000000000, 11940299/50000000], ![1131/1000, 1149/1000, 287/250, 583/500, 581/500], ![1, 1, 1, 1, 1]⟩)]

/-- Bounds on the powers of the buses. -/
def powB : Fin 5 → ℚ := ![0, 0, 1/20, 2/5, 1/10]

/-- Bounds at the flat start. -/
def tabB0 : BRow 5 :=
  ⟨![11/20, 1/2, 1/20, 2/5, 1/10], ![1, 1, 1, 1, 1], ![0, 0, 1/20, 2/5, 1/10], ![0, 0, 0, 0, 0], ![0, 0, 0, 0, 0], ![1, 1, 1, 1, 1], ![10113/100000, 5991/50000, 523/5000, 14719/100000, 1251/10000]⟩

/-- Bounds at the iterations. -/
def tabB : List (List (Fin 5 → ℚ) × BRow 5) :=
  [([],
    ⟨![3789/20000, 1887/10000, 89/6250, 4249/25000, 7/200], ![8843/10000, 4299/5000, 8799/10000, 8221/10000, 8527/10000], ![39239/100000, 19683/50000, 89/6250, 4249/25000, 7/200], ![4251/5000, 3963/5000, 711/10000, 3283/5000, 1523/10000], ![981/2500, 3937/10000, 711/10000, 3283/5000, 1523/10000], ![1157/1000, 593/500, 1161/1000, 1231/1000, 597/500], ![3569/50000, 4343/50000, 7327/100000, 2221/20000, 453/5000]⟩),
   ([![8343/10000, 8031/10000, 1037/1250, 7571/10000, 7953/10000], ![841/1000, 8111/10000, 2091/2500, 7671/10000, 1607/2000]],
    ⟨![15201/100000, 729/5000, 577/100000, 5807/50000, 3/160], ![841/1000, 8111/10000, 2091/2500, 7671/10000, 1607/2000], ![15179/50000, 28069/100000, 577/100000, 5807/50000, 3/160], ![8577/10000, 7917/10000, 41/625, 797/1250, 1433/10000], ![759/2500, 2807/10000, 41/625, 797/1250, 1433/10000], ![579/500, 1187/1000, 581/500, 1231/1000, 239/200], ![5669/100000, 1737/25000, 289/5000, 8887/100000, 1801/25000]⟩),
   ([![8403/10000, 1013/1250, 8357/10000, 7659/10000, 8027/10000], ![1707/2000, 8261/10000, 2123/2500, 1571/2000, 819/1000], ![1713/2000, 8297/10000, 8523/10000, 79/100, 8227/10000]],
    ⟨![4567/50000, 1779/20000, 269/100000, 7139/100000, 503/50000], ![1713/2000, 8297/10000, 8523/10000, 79/100, 8227/10000], ![9149/50000, 213/1250, 269/100000, 7139/100000, 503/50000], ![7779/10000, 7169/10000, 307/5000, 2889/5000, 1317/10000], ![183/1000, 213/1250, 307/5000, 2889/5000, 1317/10000], ![1143/1000, 117/100, 1147/1000, 1209/1000, 1177/1000], ![1461/50000, 1793/50000, 2973/100000, 923/20000, 3713/100000]⟩),
   ([![8631/10000, 1047/1250, 8589/10000, 7999/10000, 2077/2500], ![4353/5000, 4233/5000, 1733/2000, 8111/10000, 8401/10000]],
    ⟨![2611/100000, 1233/50000, 13/20000, 121/6250, 127/50000], ![4353/5000, 4233/5000, 1733/2000, 8111/10000, 8401/10000], ![2571/50000, 291/6250, 13/20000, 121/6250, 127/50000], ![6961/10000, 6369/10000, 73/1250, 2563/5000, 76/625], ![103/2000, 233/5000, 73/1250, 2563/5000, 76/625], ![141/125, 144/125, 283/250, 1187/1000, 579/500], ![181/25000, 177/20000, 23/3125, 1137/100000, 183/20000]⟩),
   ([![4377/5000, 4261/5000, 8713/10000, 8181/10000, 8459/10000], ![8777/10000, 171/200, 8737/10000, 1643/2000, 1061/1250]],
    ⟨![16769/10000000, 15193/10000000, 187/5000000, 1151/1000000, 731/5000000], ![8777/10000, 171/200, 8737/10000, 1643/2000, 1061/1250], ![2021/625000, 5633/2000000, 187/5000000, 1151/1000000, 731/5000000], ![6637/10000, 6063/10000, 573/10000, 4881/10000, 59/500], ![1617/500000, 2817/1000000, 28633/500000, 244033/500000, 2949/25000], ![561/500, 229/200, 563/500, 589/500, 1151/1000], ![441/1000000, 67/125000, 7/15625, 341/500000, 277/500000]⟩),
   ([],
    ⟨![3081/500000000, 5437/1000000000, 133/1000000000, 2003/500000000, 511/1000000000], ![8773/10000, 1709/2000, 8733/10000, 8209/10000, 8483/10000], ![2933/250000000, 4977/500000000, 133/1000000000, 2003/500000000, 511/1000000000], ![53/80, 1513/2500, 573/10000, 4873/10000, 1179/10000], ![2933/250000000, 4977/500000000, 57254227/1000000000, 121818519/250000000, 14735417/125000000], ![561/500, 229/200, 563/500, 589/500, 1151/1000], ![1613/1000000000, 1957/1000000000, 1639/1000000000, 2471/1000000000, 1009/500000000]⟩),
   ([],
    ⟨![1/1000000000, 1/1000000000, 1/1000000000, 1/1000000000, 1/1000000000], ![2193/2500, 534/625, 2183/2500, 513/625, 4241/5000], ![3/1000000000, 3/1000000000, 1/1000000000, 1/1000000000, 1/1000000000], ![53/80, 6053/10000, 573/10000, 2437/5000, 1179/10000], ![3/1000000000, 3/1000000000, 14315163/250000000, 121832359/250000000, 29474181/250000000], ![561/500, 229/200, 563/500, 589/500, 1151/1000], ![1, 1, 1, 1, 1]⟩)]

/-- Bounds on the powers of the buses. -/
def powC : Fin 5 → ℚ := ![0, 0, 1/20, 1/4, 13/50]

/-- Bounds at the flat start. -/
def tabC0 : BRow 5 :=
  ⟨![14/25, 51/100, 1/20, 1/4, 13/50], ![1, 1, 1, 1, 1], ![0, 0, 1/20, 1/4, 13/50], ![0, 0, 0, 0, 0], ![0, 0, 0, 0, 0], ![1, 1, 1, 1, 1], ![10297/100000, 12203/100000, 2661/25000, 6957/50000, 1697/12500]⟩

/-- Bounds at the iterations. -/
def tabC : List (List (Fin 5 → ℚ) × BRow 5) :=
  [([],
    ⟨![3777/20000, 3767/20000, 363/25000, 397/4000, 5011/50000], ![441/500, 1071/1250, 351/400, 4167/5000, 8381/10000], ![9793/25000, 19391/50000, 363/25000, 397/4000, 5011/50000], ![8561/10000, 3993/5000, 179/2500, 3993/10000, 821/2000], ![1959/5000, 3879/10000, 179/2500, 3993/10000, 821/2000], ![579/500, 1187/1000, 1163/1000, 243/200, 1209/1000], ![6907/100000, 8413/100000, 3549/50000, 1957/20000, 9477/100000]⟩),
   ([![8373/10000, 8067/10000, 4163/5000, 3899/5000, 1571/2000], ![4219/5000, 1629/2000, 1049/1250, 7887/10000, 7941/10000]],
    ⟨![13951/100000, 13311/100000, 559/100000, 5733/100000, 5571/100000], ![4219/5000, 1629/2000, 1049/1250, 7887/10000, 7941/10000], ![27821/100000, 4923/20000, 559/100000, 5733/100000, 5571/100000], ![1687/2000, 486/625, 163/2500, 234/625, 479/1250], ![2783/10000, 1231/5000, 163/2500, 234/625, 479/1250], ![231/200, 148/125, 29/25, 121/100, 301/250], ![4823/100000, 5907/100000, 2461/50000, 3409/50000, 6597/100000]⟩),
   ([![8489/10000, 8207/10000, 2111/2500, 1591/2000, 1001/1250], ![43/50, 4169/5000, 8557/10000, 4053/5000, 4077/5000]],
    ⟨![6477/100000, 6183/100000, 203/100000, 16/625, 1217/50000], ![43/50, 4169/5000, 8557/10000, 4053/5000, 4077/5000], ![12863/100000, 11177/100000, 203/100000, 16/625, 1217/50000], ![1501/2000, 1723/2500, 121/2000, 3341/10000, 3433/10000], ![1287/10000, 559/5000, 121/2000, 3341/10000, 3433/10000], ![569/500, 291/250, 571/500, 1187/1000, 591/500], ![1899/100000, 291/12500, 387/20000, 1343/50000, 649/25000]⟩),
   ([![8687/10000, 8443/10000, 1729/2000, 8223/10000, 2067/2500], ![8739/10000, 1063/1250, 4349/5000, 4147/5000, 8337/10000]],
    ⟨![1073/100000, 197/20000, 29/100000, 391/100000, 367/100000], ![8739/10000, 1063/1250, 4349/5000, 4147/5000, 8337/10000], ![2087/100000, 1743/100000, 29/100000, 391/100000, 367/100000], ![1363/2000, 779/1250, 289/5000, 1527/5000, 789/2500], ![209/10000, 7/400, 289/5000, 1527/5000, 789/2500], ![563/500, 1149/1000, 113/100, 117/100, 233/200], ![283/100000, 69/20000, 9/3125, 99/25000, 383/100000]⟩),
   ([![8763/10000, 4267/5000, 8723/10000, 8327/10000, 8369/10000]],
    ⟨![607/2500000, 107/500000, 3/500000, 409/5000000, 191/2500000], ![8763/10000, 4267/5000, 8723/10000, 8327/10000, 8369/10000], ![1157/2500000, 1861/5000000, 3/500000, 409/5000000, 191/2500000], ![1337/2000, 382/625, 287/5000, 751/2500, 777/2500], ![463/1000000, 373/1000000, 28663/500000, 30031/100000, 310747/1000000], ![1123/1000, 573/500, 1127/1000, 583/500, 581/500], ![63/1000000, 19/250000, 1/15625, 87/1000000, 21/250000]⟩),
   ([],
    ⟨![117/1000000000, 101/1000000000, 3/1000000000, 39/1000000000, 9/250000000], ![4381/5000, 8533/10000, 4361/5000, 4163/5000, 523/625], ![221/1000000000, 11/62500000, 3/1000000000, 39/1000000000, 9/250000000], ![6683/10000, 611/1000, 287/5000, 3003/10000, 777/2500], ![221/1000000000, 11/62500000, 11465261/200000000, 18766517/62500000, 310707493/1000000000], ![1123/1000, 573/500, 1127/1000, 583/500, 581/500], ![1, 1, 1, 1, 1]⟩)]

/-- Bounds on the powers of the buses. -/
def powD : Fin 5 → ℚ := ![0, 0, 3/10, 11/50, 1/10]

/-- Bounds at the flat start. -/
def tabD0 : BRow 5 :=
  ⟨![31/50, 8/25, 3/10, 11/50, 1/10], ![1, 1, 1, 1, 1], ![0, 0, 3/10, 11/50, 1/10], ![0, 0, 0, 0, 0], ![0, 0, 0, 0, 0], ![1, 1, 1, 1, 1], ![57/500, 3149/25000, 13483/100000, 7051/50000, 3281/25000]⟩

/-- Bounds at the iterations. -/
def tabD : List (List (Fin 5 → ℚ) × BRow 5) :=
  [([],
    ⟨![5519/25000, 6017/50000, 1147/10000, 2219/25000, 3703/100000], ![347/400, 1703/2000, 4197/5000, 2077/2500, 8443/10000], ![2279/5000, 24613/100000, 1147/10000, 2219/25000, 3703/100000], ![1923/2000, 1259/2500, 4721/10000, 221/625, 311/2000], ![2279/5000, 1231/5000, 4721/10000, 221/625, 311/2000], ![1177/1000, 299/250, 121/100, 61/50, 301/250], ![1981/25000, 8919/100000, 9509/100000, 10167/100000, 9317/100000]⟩),
   ([![8181/10000, 1597/2000, 7859/10000, 7743/10000, 1581/2000], ![1651/2000, 8067/10000, 3973/5000, 1959/2500, 799/1000]],
    ⟨![15853/100000, 229/2500, 6341/100000, 2727/50000, 513/25000], ![1651/2000, 8067/10000, 3973/5000, 1959/2500, 799/1000], ![15677/50000, 8333/50000, 6341/100000, 2727/50000, 513/25000], ![471/500, 311/625, 441/1000, 3353/10000, 1457/10000], ![196/625, 1667/10000, 441/1000, 3353/10000, 1457/10000], ![1173/1000, 149/125, 301/250, 243/200, 6/5], ![5541/100000, 6299/100000, 6563/100000, 717/10000, 3279/50000]⟩),
   ([![8309/10000, 508/625, 1001/1250, 3951/5000, 2013/2500], ![2109/2500, 8269/10000, 8157/10000, 8061/10000, 8199/10000], ![8463/10000, 8299/10000, 8189/10000, 1619/2000, 8229/10000]],
    ⟨![3743/50000, 2257/50000, 341/12500, 2571/100000, 913/100000], ![8463/10000, 8299/10000, 8189/10000, 1619/2000, 8229/10000], ![1841/12500, 3999/50000, 341/12500, 2571/100000, 913/100000], ![1669/2000, 877/2000, 3937/10000, 119/400, 1307/10000], ![1473/10000, 2/25, 3937/10000, 119/400, 1307/10000], ![577/500, 117/100, 1181/1000, 119/100, 1177/1000], ![2227/100000, 2537/100000, 131/5000, 2891/100000, 33/1250]⟩),
   ([![8541/10000, 8387/10000, 4139/5000, 8193/10000, 8321/10000], ![4299/5000, 169/200, 1043/1250, 1033/1250, 4193/5000]],
    ⟨![257/20000, 383/50000, 13/3125, 83/20000, 143/100000], ![4299/5000, 169/200, 1043/1250, 1033/1250, 4193/5000], ![2467/100000, 331/25000, 13/3125, 83/20000, 143/100000], ![7579/10000, 983/2500, 3637/10000, 169/625, 1207/10000], ![247/10000, 133/10000, 3637/10000, 169/625, 1207/10000], ![57/50, 577/500, 233/200, 1173/1000, 1161/1000], ![173/50000, 393/100000, 403/100000, 447/100000, 51/12500]⟩),
   ([![4313/5000, 8481/10000, 1047/1250, 8299/10000, 4209/5000]],
    ⟨![631/2000000, 919/5000000, 931/10000000, 3/31250, 163/5000000], ![4313/5000, 8481/10000, 1047/1250, 8299/10000, 4209/5000], ![1481/2500000, 781/2500000, 931/10000000, 3/31250, 163/5000000], ![464/625, 3841/10000, 3583/10000, 663/2500, 1189/10000], ![593/1000000, 313/1000000, 17913/50000, 265189/1000000, 59413/500000], ![1137/1000, 1151/1000, 581/500, 1169/1000, 1157/1000], ![21/250000, 19/200000, 97/1000000, 107/1000000, 49/500000]⟩),
   ([],
    ⟨![91/500000000, 21/200000000, 13/250000000, 27/500000000, 19/1000000000], ![69/80, 106/125, 67/80, 4149/5000, 8417/10000], ![339/1000000000, 89/500000000, 13/250000000, 27/500000000, 19/1000000000], ![3711/5000, 48/125, 3583/10000, 663/2500, 1189/10000], ![339/1000000000, 89/500000000, 22388063/62500000, 265124181/1000000000, 23761439/200000000], ![1137/1000, 1151/1000, 581/500, 1169/1000, 1157/1000], ![1, 1, 1, 1, 1]⟩)]

/-- Bounds on the impedances. -/
def easyZn : Fin 5 → ℚ := ![367/2000, 373/10000, 693/10000, 683/10000, 527/10000]

theorem easyZ_le (l : Fin 5) : ‖easyRadial.z l‖ ≤ easyZn l := by
  have key : ∀ {a b r : ℝ}, 0 ≤ r → a ^ 2 + b ^ 2 ≤ r ^ 2 → ‖(⟨a, b⟩ : ℂ)‖ ≤ r := by
    intro a b r h0 h
    refine abs_le_of_sq_le_sq' ?_ h0 |>.2
    rw [← Complex.normSq_eq_norm_sq, Complex.normSq_mk]
    linarith
  fin_cases l <;> simp only [easyRadial, easyZ, easyZn] <;> refine key ?_ ?_ <;> norm_num

theorem volt_flat (i : Fin 6) : NR.volt (NR.flat : Guess 5) i = 1 := by
  refine Fin.cases rfl (fun k => ?_) i
  simp [volt_succ, NR.flat]

/-- What the first row of a table has to say about the flat start. -/
def flatOk (s : Fin 5 → ℚ) (B : BRow 5) : Prop :=
  (∀ l, ∑ k ∈ easyRadial.sub l, s k ≤ B.r l) ∧ (∀ k, B.lo k ≤ 1) ∧ (∀ k, 0 < B.lo k) ∧ (∀ k, s k ≤ B.c k) ∧ (∀ k, 0 ≤ B.J k) ∧ (∀ k, 0 ≤ B.A k) ∧
    ∀ k, 1 ≤ B.hi k

instance (s : Fin 5 → ℚ) (B : BRow 5) : Decidable (flatOk s B) := by unfold flatOk; infer_instance

/-- The bounds of the flat start. -/
theorem flat_at {S : Fin 5 → ℂ} {s : Fin 5 → ℚ} {B : BRow 5} (hs : ∀ k, ‖S k‖ ≤ s k) (hB : flatOk s B) :
    easyRadial.At S (NR.volt NR.flat) (fun k => B.r k) (fun k => B.lo k) (fun k => B.c k) (fun k => B.J k) (fun k => B.A k)
      (Fin.cons 1 fun k => (B.hi k : ℝ)) := by
  obtain ⟨b1, b2, b3, b4, b5, b6, b7⟩ := hB
  have hc : ∀ k, NR.curr (ymat 5 easyLines) (NR.volt NR.flat) k = 0 := by
    intro k
    rw [easy_currents]
    fin_cases k <;> simp [volt_flat]
  have hm : ∀ k, missing (ymat 5 easyLines) S (NR.volt NR.flat) k = -conj (S k) := by
    intro k
    rw [missing, hc, volt_flat, div_one, zero_sub]
  refine ⟨fun l => ?_, fun k => ?_, fun k => ?_, fun k => ?_, fun l => ?_, fun k => ?_, fun i => ?_⟩
  · have h1 : ‖∑ k ∈ easyRadial.sub l, missing (ymat 5 easyLines) S (NR.volt NR.flat) k‖ ≤ ∑ k ∈ easyRadial.sub l, (s k : ℝ) := by
      refine (norm_sum_le _ _).trans (Finset.sum_le_sum fun k _ => ?_)
      rw [hm, norm_neg, RCLike.norm_conj]
      exact hs k
    refine h1.trans ?_
    exact_mod_cast b1 l
  · rw [volt_flat, norm_one]
    exact_mod_cast b2 k
  · exact_mod_cast b3 k
  · rw [hm, norm_neg, RCLike.norm_conj]
    exact (hs k).trans (by exact_mod_cast b4 k)
  · rw [line, volt_flat, volt_flat, sub_self, zero_div, norm_zero]
    exact_mod_cast b5 l
  · rw [hc, norm_zero]
    exact_mod_cast b6 k
  · rw [volt_flat, norm_one]
    refine Fin.cases le_rfl (fun k => ?_) i
    rw [Fin.cons_succ]
    exact_mod_cast b7 k

/-- The loop of the load flow of ANM6 ends well, given a table. -/
theorem easy_table {o : LFOracle} (ho : ExactLF o) {p q : Fin 5 → ℝ} {s M : Fin 5 → ℚ} (hs : ∀ k, ‖powersOf p q k‖ ≤ s k) (B : BRow 5)
    (rest : List (List (Fin 5 → ℚ) × BRow 5)) (hB : flatOk s B) (hc : easyRadial.chainOk easyZn s M B rest) (hM : ∀ k, M k ≤ B.lo k)
    (hl : rest.length ≤ 100) :
    Settled (ymat 5 easyLines) p q (fun k => M k) (NR.run o (ymat 5 easyLines) (fun k => .fin (p k)) (fun k => .fin (q k)) xtol) :=
  chain_settled ho easyZ_le hs B rest hc hM (fun _ => one_pos) (flat_at hs hB) (i := 0) (fuel := 100) (by omega) hl

theorem tabA_ok : easyRadial.chainOk easyZn powA (fun _ => 3/4) tabA0 tabA := by decide +kernel
theorem tabB_ok : easyRadial.chainOk easyZn powB (fun _ => 3/4) tabB0 tabB := by decide +kernel
theorem tabC_ok : easyRadial.chainOk easyZn powC (fun _ => 3/4) tabC0 tabC := by decide +kernel
theorem tabD_ok : easyRadial.chainOk easyZn powD (fun _ => 3/4) tabD0 tabD := by decide +kernel

/-- The bounds on the sums of the missing currents after the loop. -/
def restR : Fin 5 → ℚ := ![95/1000000, 57/1000000, 19/1000000, 19/1000000, 19/1000000]

/-- Bounds on the voltages after the loop, as far as they follow from the missing currents. -/
def endOk (s L : Fin 5 → ℚ) (ls : List (Fin 5 → ℚ)) : Prop :=
  easyRadial.lowsOk easyZn s restR L (fun _ => 3/4) ls ∧ (∀ k, 41/50 ≤ L k) ∧
    ∀ k, 1 + ∑ l ∈ easyRadial.path k, easyZn l * (restR l + ∑ i ∈ easyRadial.sub l, s i / L i) ≤ 59/50

instance (s L : Fin 5 → ℚ) (ls : List (Fin 5 → ℚ)) : Decidable (endOk s L ls) := by unfold endOk; infer_instance

/-- What the loop of the load flow of ANM6 ends with. -/
def SettledEasy (p q : Fin 5 → ℝ) (st : NR.St 5) : Prop :=
  ∃ g, st.guess = some g ∧ NR.stable xtol st = true ∧ (∀ k : Fin 5, 41/50 ≤ ‖NR.volt g k.succ‖ ∧ ‖NR.volt g k.succ‖ ≤ 59/50) ∧
    ∀ k, ‖missing (ymat 5 easyLines) (powersOf p q) (NR.volt g) k‖ ≤ 19/1000000

theorem settled_easy {p q : Fin 5 → ℝ} {st : NR.St 5} {s L : Fin 5 → ℚ} {ls : List (Fin 5 → ℚ)} (hs : ∀ k, ‖powersOf p q k‖ ≤ s k)
    (hL : endOk s L ls) (h : Settled (ymat 5 easyLines) p q (fun _ => (3/4 : ℚ)) st) : SettledEasy p q st := by
  obtain ⟨g, h1, hg, h2, h3, h4⟩ := h
  rw [h2] at h3
  have hm : ∀ k, ‖missing (ymat 5 easyLines) (powersOf p q) (NR.volt g) k‖ ≤ 19/1000000 := by
    intro k
    have h5 := missing_of_norm hg (by unfold xtol; norm_num) h3 k
    have h6 := h4 k
    unfold xtol at h5
    push_cast at h6
    have h7 := norm_nonneg (missing (ymat 5 easyLines) (powersOf p q) (NR.volt g) k)
    nlinarith
  have hr : ∀ l, ‖∑ k ∈ easyRadial.sub l, missing (ymat 5 easyLines) (powersOf p q) (NR.volt g) k‖ ≤ restR l := by
    intro l
    refine (norm_sum_le _ _).trans ((Finset.sum_le_sum fun k _ => hm k).trans ?_)
    rw [Finset.sum_const, nsmul_eq_mul]
    fin_cases l <;> simp [easyRadial, restR] <;> norm_num
  have hl := lows_bound rfl easyZ_le hs hr _ ls hL.1 h4
  have h0 : ∀ k, (0 : ℝ) < L k := fun k => by
    have := hL.2.1 k
    rify at this
    linarith
  obtain ⟨-, -, hh⟩ := low_of_low (R := easyRadial) (s := fun k => s k) (zn := fun l => easyZn l) (lo := fun k => L k) (r := fun k => restR k)
    (lo' := fun k => 1 - ∑ l ∈ easyRadial.path k, (easyZn l : ℝ) * (restR l + ∑ i ∈ easyRadial.sub l, (s i : ℝ) / L i)) rfl hs easyZ_le hr h0 hl
      (fun k => by linarith)
  refine ⟨g, h1, stable_of_norm (h2 ▸ h3), fun k => ⟨le_trans ?_ (hl k), (hh k).trans ?_⟩, hm⟩
  · have := hL.2.1 k
    rify at this
    exact this
  · have := hL.2.2 k
    rify at this
    exact this

/-- The four ranges of powers. -/
def Spec.PowerRanges (x : Fin 5 → ℂ) : Prop :=
  x 0 = 0 ∧ x 1 = 0 ∧ ((‖x 2‖ ≤ 20/100 ∧ ‖x 3‖ ≤ 20/100 ∧ ‖x 4‖ ≤ 20/100) ∨ (‖x 2‖ ≤ 5/100 ∧ ‖x 3‖ ≤ 40/100 ∧ ‖x 4‖ ≤ 10/100) ∨
    (‖x 2‖ ≤ 5/100 ∧ ‖x 3‖ ≤ 25/100 ∧ ‖x 4‖ ≤ 26/100) ∨ (‖x 2‖ ≤ 30/100 ∧ ‖x 3‖ ≤ 22/100 ∧ ‖x 4‖ ≤ 10/100))

/-- The loop of the load flow of ANM6 ends well in the four ranges. -/
theorem easy_settled {o : LFOracle} (ho : ExactLF o) {p q : Fin 5 → ℝ} (h : PowerRanges (powersOf p q)) :
    SettledEasy p q (NR.run o (ymat 5 easyLines) (fun k => .fin (p k)) (fun k => .fin (q k)) xtol) := by
  obtain ⟨h0, h1, h⟩ := h
  have five : ∀ {s : Fin 5 → ℚ}, s 0 = 0 → s 1 = 0 → ‖powersOf p q 2‖ ≤ s 2 → ‖powersOf p q 3‖ ≤ s 3 → ‖powersOf p q 4‖ ≤ s 4 →
      ∀ k, ‖powersOf p q k‖ ≤ s k := by
    intro s a0 a1 a2 a3 a4 k
    fin_cases k
    · simp [h0, a0]
    · simp [h1, a1]
    · exact a2
    · exact a3
    · exact a4
  rcases h with ⟨h2, h3, h4⟩ | ⟨h2, h3, h4⟩ | ⟨h2, h3, h4⟩ | ⟨h2, h3, h4⟩
  · have hs := five (s := powA) rfl rfl (h2.trans (by simp [powA]; norm_num)) (h3.trans (by simp [powA]; norm_num)) (h4.trans (by simp [powA]; norm_num))
    exact settled_easy (L := ![869/1000, 851/1000, 213/250, 417/500, 419/500])
      (ls := [![853/1000, 833/1000, 417/500, 163/200, 819/1000], ![433/500, 847/1000, 849/1000, 831/1000, 167/200], ![217/250, 17/20, 213/250, 417/500, 419/500], ![869/1000, 851/1000, 213/250, 417/500, 419/500]]) hs
      (by decide +kernel) (easy_table ho hs tabA0 tabA (by decide +kernel) tabA_ok (by decide +kernel) (by decide))
  · have hs := five (s := powB) rfl rfl (h2.trans (by simp [powB]; norm_num)) (h3.trans (by simp [powB]; norm_num)) (h4.trans (by simp [powB]; norm_num))
    exact settled_easy (L := ![439/500, 107/125, 437/500, 411/500, 849/1000])
      (ls := [![173/200, 21/25, 43/50, 201/250, 833/1000], ![7/8, 213/250, 871/1000, 409/500, 423/500], ![439/500, 171/200, 437/500, 821/1000, 849/1000], ![439/500, 171/200, 437/500, 411/500, 849/1000], ![439/500, 107/125, 437/500, 411/500, 849/1000]]) hs
      (by decide +kernel) (easy_table ho hs tabB0 tabB (by decide +kernel) tabB_ok (by decide +kernel) (by decide))
  · have hs := five (s := powC) rfl rfl (h2.trans (by simp [powC]; norm_num)) (h3.trans (by simp [powC]; norm_num)) (h4.trans (by simp [powC]; norm_num))
    exact settled_easy (L := ![877/1000, 427/500, 873/1000, 417/500, 419/500])
      (ls := [![431/500, 837/1000, 429/500, 407/500, 819/1000], ![437/500, 851/1000, 87/100, 83/100, 417/500], ![219/250, 427/500, 109/125, 833/1000, 837/1000], ![877/1000, 427/500, 873/1000, 417/500, 419/500]]) hs
      (by decide +kernel) (easy_table ho hs tabC0 tabC (by decide +kernel) tabC_ok (by decide +kernel) (by decide))
  · have hs := five (s := powD) rfl rfl (h2.trans (by simp [powD]; norm_num)) (h3.trans (by simp [powD]; norm_num)) (h4.trans (by simp [powD]; norm_num))
    exact settled_easy (L := ![108/125, 849/1000, 839/1000, 831/1000, 843/1000])
      (ls := [![106/125, 104/125, 41/50, 203/250, 33/40], ![43/50, 423/500, 167/200, 827/1000, 839/1000], ![863/1000, 106/125, 419/500, 83/100, 421/500], ![863/1000, 849/1000, 839/1000, 831/1000, 843/1000], ![108/125, 849/1000, 839/1000, 831/1000, 843/1000]]) hs
      (by decide +kernel) (easy_table ho hs tabD0 tabD (by decide +kernel) tabD_ok (by decide +kernel) (by decide))

/-- **C115.** With exactly solved linear systems, the load flow of ANM6 converges whenever the powers of the buses are in one of
four ranges, and the voltages of the buses are then between 82 % and 118 % of their nominal values. -/
theorem C115_converges {o : LFOracle} (ho : ExactLF o) {qp : QP ℝ} {pi : ℝ} {s s' : Sim ℝ} {a : Sim.Args ℝ} {out : Sim.TransOut ℝ}
    (hs : SimOf anm6Net (.fin (1/4)) (.fin 100) s) (hc : SameConfig easySim s) (h : s.transition ⟨qp, realPF o, pi⟩ a = .ok (s', out))
    {p q : ℕ → ℝ} {d0 d1 d2 d3 d4 d5 d6 : Device ℝ} (D : Injects s' p q d0 d1 d2 d3 d4 d5 d6)
    (hp : PowerRanges fun k => ⟨busInj p k, busInj q k⟩) :
    out.converged = true ∧ ∃ V : Fin 6 → ℂ, Solved s' easyLines (atId V) ∧
      (∀ k : Fin 5, 41/50 ≤ ‖V k.succ‖ ∧ ‖V k.succ‖ ≤ 59/50) ∧
      ∀ k : Fin 5, ‖V k.succ * conj (NR.curr (ymat 5 easyLines) V k.succ) - ⟨busInj p k, busInj q k⟩‖ ≤ 3/100000 := by
  obtain ⟨h1, h2⟩ := inject_run hs hc h D
  obtain ⟨g, e1, e2, e3, e4⟩ := easy_settled ho (p := busInj p) (q := busInj q) hp
  refine ⟨h1.trans e2, NR.volt g, h2 g e1, e3, fun k => ?_⟩
  have hv : NR.volt g k.succ ≠ 0 := by
    intro h
    have := (e3 k).1
    rw [h, norm_zero] at this
    norm_num at this
  have e : NR.volt g k.succ * conj (NR.curr (ymat 5 easyLines) (NR.volt g) k.succ) - ⟨busInj p k, busInj q k⟩ =
      NR.volt g k.succ * conj (missing (ymat 5 easyLines) (powersOf (busInj p) (busInj q)) (NR.volt g) k) := by
    rw [missing, map_sub, conj_conj, powersOf]
    field_simp
  rw [e, norm_mul, RCLike.norm_conj]
  exact (mul_le_mul (e3 k).2 (e4 k) (norm_nonneg _) (by norm_num)).trans (by norm_num)

end

end Anm
