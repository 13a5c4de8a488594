import Verif.Props.CustomReset
import Verif.Props.ExampleVars

/-!
# C158: an agent that only curtails never ends an episode of the six-bus example

With exactly solved linear systems the load flow of `examples/custom_anm6.py` converges after every action without reactive powers that
leaves the storage unit idle, whatever the demands and the maximum productions drawn.
-/

namespace Anm

open Spec Complex ComplexConjugate Radial

noncomputable section

/-- Bounds on the powers of the buses. -/
def powE : Fin 5 → ℚ := ![0, 0, 301/1000, 0, 306/1000]

/-- Bounds at the flat start. -/
def tabE0 : BRow 5 :=
  ⟨![607/1000, 153/500, 301/1000, 0, 153/500], ![1, 1, 1, 1, 1], ![0, 0, 301/1000, 0, 153/500], ![0, 0, 0, 0, 0], ![0, 0, 0, 0, 0], ![1, 1, 1, 1, 1], ![2229/20000, 6143/50000, 13231/100000, 6143/50000, 139/1000]⟩

/-- Bounds at the iterations. -/
def tabE : List (List (Fin 5 → ℚ) × BRow 5) :=
  [([![8709/10000, 8557/10000, 2107/2500, 8557/10000, 521/625]],
    ⟨![10651/50000, 11433/100000, 11253/100000, 0, 12133/100000], ![8709/10000, 8557/10000, 2107/2500, 8557/10000, 521/625], ![10997/25000, 11783/50000, 11253/100000, 0, 12133/100000], ![9373/10000, 963/2000, 4697/10000, 0, 977/2000], ![10997/25000, 11783/50000, 5871/12500, 0, 24421/50000], ![293/250, 119/100, 241/200, 119/100, 152/125], ![937/12500, 8421/100000, 451/5000, 8421/100000, 9711/100000]⟩),
   ([![8249/10000, 504/625, 7933/10000, 504/625, 781/1000], ![8321/10000, 509/625, 4009/5000, 509/625, 7901/10000], ![521/625, 8161/10000, 2009/2500, 8161/10000, 99/125]],
    ⟨![23/160, 4099/50000, 2879/50000, 0, 1737/25000], ![521/625, 8161/10000, 2009/2500, 8161/10000, 99/125], ![28331/100000, 7573/50000, 2879/50000, 0, 1737/25000], ![9047/10000, 1171/2500, 2161/5000, 0, 4559/10000], ![28331/100000, 7573/50000, 8643/20000, 0, 9117/20000], ![1167/1000, 148/125, 299/250, 148/125, 151/125], ![193/4000, 171/3125, 2857/50000, 171/3125, 1573/25000]⟩),
   ([![8399/10000, 1029/1250, 2027/2500, 1029/1250, 7999/10000], ![851/1000, 4177/5000, 4119/5000, 4177/5000, 4069/5000], ![8533/10000, 419/500, 1653/2000, 419/500, 8167/10000], ![8537/10000, 1677/2000, 8271/10000, 1677/2000, 8173/10000]],
    ⟨![2897/50000, 1723/50000, 2067/100000, 0, 549/20000], ![8537/10000, 1677/2000, 8271/10000, 1677/2000, 8173/10000], ![11307/100000, 6191/100000, 2067/100000, 0, 549/20000], ![7963/10000, 4089/10000, 1923/5000, 0, 4019/10000], ![11307/100000, 6191/100000, 1923/5000, 0, 20093/50000], ![1147/1000, 581/500, 1173/1000, 581/500, 1183/1000], ![1661/100000, 59/3125, 39/2000, 59/3125, 217/10000]⟩),
   ([![4301/5000, 4229/5000, 8343/10000, 4229/5000, 4127/5000], ![2161/2500, 1063/1250, 1049/1250, 1063/1250, 8307/10000], ![2163/2500, 8513/10000, 4201/5000, 8513/10000, 8317/10000]],
    ⟨![18179/2500000, 8567/2000000, 11397/5000000, 0, 32177/10000000], ![2163/2500, 8513/10000, 4201/5000, 8513/10000, 8317/10000], ![173/12500, 18753/2500000, 11397/5000000, 0, 32177/10000000], ![1467/2000, 3723/10000, 1803/5000, 0, 232/625], ![173/12500, 18753/2500000, 36053/100000, 0, 18557/50000], ![227/200, 1149/1000, 29/25, 1149/1000, 1169/1000], ![1919/1000000, 21793/10000000, 4461/2000000, 21793/10000000, 24933/10000000]⟩),
   ([![1083/1250, 4263/5000, 1683/2000, 4263/5000, 2083/2500], ![8669/10000, 2133/2500, 8421/10000, 2133/2500, 4169/5000]],
    ⟨![9813/100000000, 28437/500000000, 5613/200000000, 0, 20503/500000000], ![8669/10000, 2133/2500, 8421/10000, 2133/2500, 4169/5000], ![1831/10000000, 2447/25000000, 5613/200000000, 0, 20503/500000000], ![3623/5000, 3671/10000, 143/400, 0, 3671/10000], ![1831/10000000, 2447/25000000, 35747/100000, 0, 1147/3125], ![1133/1000, 1147/1000, 579/500, 1147/1000, 1167/1000], ![5117/200000000, 14507/500000000, 14759/500000000, 14507/500000000, 33049/1000000000]⟩),
   ([![867/1000, 8533/10000, 4211/5000, 8533/10000, 417/500]],
    ⟨![9/500000000, 1/100000000, 1/200000000, 0, 1/125000000], ![867/1000, 8533/10000, 4211/5000, 8533/10000, 417/500], ![33/1000000000, 9/500000000, 1/200000000, 0, 1/125000000], ![1811/2500, 367/1000, 1787/5000, 0, 367/1000], ![33/1000000000, 9/500000000, 1787/5000, 0, 36691/100000], ![1133/1000, 1147/1000, 579/500, 1147/1000, 583/500], ![1/200000000, 3/500000000, 3/500000000, 3/500000000, 7/1000000000]⟩)]

theorem tabE_ok : easyRadial.chainOk easyZn powE (fun _ => 3/4) tabE0 tabE := by decide +kernel

theorem curtail_powers {S : Fin 5 → ℂ} (h0 : S 0 = 0) (h1 : S 1 = 0) (h2 : ‖S 2‖ ≤ 301/1000) (h3 : S 3 = 0) (h4 : ‖S 4‖ ≤ 306/1000)
    (k : Fin 5) : ‖S k‖ ≤ powE k := by
  fin_cases k
  · simp [h0, powE]
  · simp [h1, powE]
  · exact h2.trans (by simp [powE])
  · simp [h3, powE]
  · exact h4.trans (by simp [powE])

/-- The loop of the load flow of ANM6 ends well if only the buses 3 and 5 exchange power, of 30.1 MVA and 30.6 MVA at most. -/
theorem curtail_settled {o : LFOracle} (ho : ExactLF o) {p q : Fin 5 → ℝ} (h0 : powersOf p q 0 = 0) (h1 : powersOf p q 1 = 0)
    (h2 : ‖powersOf p q 2‖ ≤ 301/1000) (h3 : powersOf p q 3 = 0) (h4 : ‖powersOf p q 4‖ ≤ 306/1000) :
    SettledEasy p q (NR.run o (ymat 5 easyLines) (fun k => .fin (p k)) (fun k => .fin (q k)) xtol) := by
  have hs := curtail_powers h0 h1 h2 h3 h4
  exact settled_easy (L := ![433/500, 853/1000, 421/500, 853/1000, 833/1000])
    (ls := [![851/1000, 209/250, 823/1000, 209/250, 407/500], ![863/1000, 849/1000, 419/500, 849/1000, 83/100], ![433/500, 213/250, 841/1000, 213/250, 833/1000], ![433/500, 853/1000, 421/500, 853/1000, 833/1000]]) hs
    (by decide +kernel) (easy_table ho hs tabE0 tabE (by decide +kernel) tabE_ok (by decide +kernel) (by decide))

/-- Bounds on the currents through the lines. -/
def lineE (l : Fin 5) : ℚ := ∑ i ∈ easyRadial.sub l, (19/1000000 + powE i / (41/50))

theorem curtail_lines {S : Fin 5 → ℂ} {V : Fin 6 → ℂ} (hs : ∀ k, ‖S k‖ ≤ powE k) (hv : ∀ k : Fin 5, 41/50 ≤ ‖V k.succ‖)
    (hm : ∀ k, ‖missing (ymat 5 easyLines) S V k‖ ≤ 19/1000000) (l : Fin 5) : ‖easyRadial.line V l‖ ≤ lineE l := by
  have bus : ∀ i : Fin 5, ‖NR.curr (ymat 5 easyLines) V i.succ‖ ≤ 19/1000000 + powE i / (41/50) := by
    intro i
    have e : NR.curr (ymat 5 easyLines) V i.succ = missing (ymat 5 easyLines) S V i + conj (S i / V i.succ) := by
      rw [missing]; ring
    rw [e]
    refine (norm_add_le _ _).trans (add_le_add (hm i) ?_)
    rw [RCLike.norm_conj, norm_div]
    exact div_le_div₀ ((norm_nonneg _).trans (hs i)) (hs i) (by norm_num) (hv i)
  rw [Radial.line, ← easyRadial.subtree]
  refine (norm_sum_le _ _).trans ?_
  rw [lineE]
  push_cast
  exact Finset.sum_le_sum fun i _ => bus i

/-- A point closest to one on the axis is on the axis. -/
theorem closest_flat {C : ℝ → ℝ → Prop} {p x y : ℝ} (h0 : C x 0) (h : ClosestIn C p (0 / 100) x y) : y = 0 := by
  have := h.2 x 0 h0
  simp only [sqDist, zero_div, sub_zero] at this
  nlinarith [sq_nonneg y, sq_nonneg (x - p)]

/-- What a step of the six-bus example hands to the simulator. -/
structure Spec.CustomInputs (a : Sim.Args ℝ) (l1 l5 pot p2 p4 q2 q4 p6 q6 : ℝ) : Prop where
  load1 : a.pLoad.get? 1 = some (.fin l1) ∧ -10 ≤ l1 ∧ l1 ≤ 0
  load3 : ∃ x : ℝ, a.pLoad.get? 3 = some (.fin x) ∧ 0 ≤ x
  load5 : a.pLoad.get? 5 = some (.fin l5) ∧ -30 ≤ l5 ∧ l5 ≤ 0
  pot2 : a.pPot.get? 2 = some (.fin pot)
  pot4 : ∃ x : ℝ, a.pPot.get? 4 = some (.fin x) ∧ x ≤ 0
  set2 : a.pSet.get? 2 = some (.fin p2) ∧ a.qSet.get? 2 = some (.fin q2)
  set4 : a.pSet.get? 4 = some (.fin p4) ∧ a.qSet.get? 4 = some (.fin q4)
  set6 : a.pSet.get? 6 = some (.fin p6) ∧ a.qSet.get? 6 = some (.fin q6)

/-- The devices after a transition with such inputs. -/
structure Spec.CustomApplied (s' : Sim ℝ) (l1 l5 pot p2 p4 q2 q4 p6 q6 : ℝ) (d0 d1 d2 d3 d4 d5 d6 : Device ℝ)
    (x2 y2 x4 y4 x6 y6 z : ℝ) : Prop where
  inj : Injects s' (powers l1 (100 * x2) 0 (100 * x4) l5 (100 * x6)) (powers (l1 / 5) (100 * y2) 0 (100 * y4) (l5 / 5) (100 * y6)) d0 d1 d2 d3 d4 d5 d6
  gen2 : ClosestIn (GenRegion easyGen2 (min (max 0 (pot / 100)) (3/10))) (p2 / 100) (q2 / 100) x2 y2
  gen4 : ClosestIn (GenRegion easyGen4 0) (p4 / 100) (q4 / 100) x4 y4
  des : ClosestIn (DesRegion easyDes (1/4) z) (p6 / 100) (q6 / 100) x6 y6
  soc : 0 ≤ z ∧ z ≤ 1

theorem custom_applied {c : Ctx ℝ} (hq : QPExact c.qp) {s s' : Sim ℝ} {a : Sim.Args ℝ}
    {out : Sim.TransOut ℝ} (hs : SimOf anm6Net (.fin (1/4)) (.fin 100) s) (hc : SameConfig easySim s) (hsoc : SocFin s)
    {l1 l5 pot p2 p4 q2 q4 p6 q6 : ℝ} (ha : CustomInputs a l1 l5 pot p2 p4 q2 q4 p6 q6) (h : s.transition c a = .ok (s', out)) :
    ∃ d0 d1 d2 d3 d4 d5 d6 x2 y2 x4 y4 x6 y6 z, CustomApplied s' l1 l5 pot p2 p4 q2 q4 p6 q6 d0 d1 d2 d3 d4 d5 d6 x2 y2 x4 y4 x6 y6 z := by
  obtain ⟨c0, c1, c2, c3, c4, c5, c6, hcs, -, -, -, -, -, -, k6⟩ := easy_devices hc
  obtain ⟨d0, d1, d2, d3, d4, d5, d6, hds, m0, m1, m2, m3, m4, m5, m6⟩ := easy_devices (sameConfig_trans hc (sameConfig_transition h))
  obtain ⟨⟨L1, L1', L1''⟩, ⟨l3, L3, L3'⟩, ⟨L5, L5', L5''⟩, P2, ⟨pot4, P4, P4'⟩, ⟨S2, T2⟩, ⟨S4, T4⟩, ⟨S6, T6⟩⟩ := ha
  have h100 : (100 : ℝ) ≠ 0 := by norm_num
  have ratio : ∀ {d : Device ℝ} {x : ℝ}, d ∈ s'.devices → d.isLoad = true → d.isSlack = false → d.qpRatio = .fin (1/5) →
      d.p = .fin (x / 100) → d.p = .fin (x / 100) ∧ d.q = .fin (x / 5 / 100) := by
    intro d x hd hl hsl hr hp
    refine ⟨hp, ?_⟩
    rw [load_ratio h hd hl hsl, hp, hr, X.fin_mul_fin]
    congr 1
    ring
  have inside : ∀ {d : Device ℝ} {i : ℤ} {l lo : ℝ}, d ∈ s'.devices → d.isLoad = true → d.isSlack = false → d.id = i → d.qpRatio = .fin (1/5) →
      a.pLoad.get? i = some (.fin l) → d.pMin = .fin lo → d.pMax = .fin 0 → lo ≤ l / 100 → l / 100 ≤ 0 →
      d.p = .fin (l / 100) ∧ d.q = .fin (l / 5 / 100) := by
    intro d i l lo hd hl hsl hi hr hx hlo hhi b1 b2
    refine ratio hd hl hsl hr ?_
    obtain ⟨x', hx', hcut, -, -⟩ := C18_load_saturates anm6_clean hs h hd hl
    rw [hi, hx] at hx'
    obtain rfl := Option.some.inj hx'
    rw [X.fin_div_fin h100, hlo, hhi] at hcut
    exact hcut b1 b2
  have R1 := inside (d := d1) (by rw [hds]; simp) (by rw [m1]; rfl) (by rw [m1]; rfl) (by rw [m1]; rfl) (by rw [m1]; rfl) L1 (by rw [m1]; rfl)
    (by rw [m1]; rfl) (by linarith) (by linarith)
  have R5 := inside (d := d5) (by rw [hds]; simp) (by rw [m5]; rfl) (by rw [m5]; rfl) (by rw [m5]; rfl) (by rw [m5]; rfl) L5 (by rw [m5]; rfl)
    (by rw [m5]; rfl) (by linarith) (by linarith)
  have R3 : d3.p = .fin (0 / 100) ∧ d3.q = .fin (0 / 5 / 100) := by
    refine ratio (by rw [hds]; simp) (by rw [m3]; rfl) (by rw [m3]; rfl) (by rw [m3]; rfl) ?_
    obtain ⟨x', hx', -, hcut, -⟩ := C18_load_saturates anm6_clean hs h (d := d3) (by rw [hds]; simp) (by rw [m3]; rfl)
    rw [show d3.id = 3 by rw [m3]; rfl, L3] at hx'
    obtain rfl := Option.some.inj hx'
    rw [X.fin_div_fin h100, show d3.pMax = .fin 0 by rw [m3]; rfl] at hcut
    rw [zero_div]
    exact hcut (by rw [X.fin_le_fin]; positivity)
  have i2 : d2.id = 2 := by rw [m2]; rfl
  have i4 : d4.id = 4 := by rw [m4]; rfl
  have i6 : d6.id = 6 := by rw [m6]; rfl
  have h2 := transition_gen (g := easyGen2) (pot := pot) (p := p2) (q := q2) anm6_clean hs hq h (d := d2) (by rw [hds]; simp) (by rw [m2]; rfl)
    (by rw [m2]; exact ⟨rfl, rfl, rfl, rfl, rfl, rfl, rfl⟩) (by rw [i2]; exact P2) (by rw [i2]; exact S2) (by rw [i2]; exact T2)
  have h4 := transition_gen (g := easyGen4) (pot := pot4) (p := p4) (q := q4) anm6_clean hs hq h (d := d4) (by rw [hds]; simp) (by rw [m4]; rfl)
    (by rw [m4]; exact ⟨rfl, rfl, rfl, rfl, rfl, rfl, rfl⟩) (by rw [i4]; exact P4) (by rw [i4]; exact S4) (by rw [i4]; exact T4)
  obtain ⟨z, hz, z1, z2⟩ := hsoc c6 (by rw [hcs]; simp) (by rw [k6]; rfl)
  rw [show c6.socMin = .fin 0 by rw [k6]; rfl] at z1
  rw [show c6.socMax = .fin 1 by rw [k6]; rfl] at z2
  have z1' : 0 ≤ z := by simpa using z1
  have z2' : z ≤ 1 := by simpa using z2
  have h6 := transition_des (g := easyDes) (p := p6) (q := q6) anm6_clean hs (by norm_num) hq h (d := d6) (by rw [hds]; simp) (by rw [m6]; rfl)
    (by rw [m6]; exact ⟨rfl, rfl, rfl, rfl, rfl, rfl, rfl, rfl, rfl, rfl, rfl⟩) (by norm_num [easyDes]) (d0 := c6) (by rw [hcs]; simp)
    (by rw [i6, k6]; rfl) hz (by rw [i6]; exact S6) (by rw [i6]; exact T6)
  obtain ⟨-, x2, y2, e2, f2, g2⟩ := h2
  obtain ⟨-, x4, y4, e4, f4, g4⟩ := h4
  obtain ⟨-, x6, y6, e6, f6, g6⟩ := h6
  have z4 : min (max easyGen4.pmin (pot4 / 100)) easyGen4.pmax = 0 := by
    have h1 : pot4 / 100 ≤ 0 := div_nonpos_of_nonpos_of_nonneg P4' (by norm_num)
    rw [show easyGen4.pmin = 0 from rfl, max_eq_left h1, show easyGen4.pmax = 1/2 from rfl, min_eq_left (by norm_num)]
  rw [z4] at g4
  refine ⟨d0, d1, d2, d3, d4, d5, d6, x2, y2, x4, y4, x6, y6, z, ?_, g2, g4, g6, z1', z2'⟩
  have hm : ∀ x : ℝ, 100 * x / 100 = x := fun x => by ring
  refine ⟨hds, ⟨by rw [m0]; rfl, by rw [m1]; rfl, by rw [m2]; rfl, by rw [m3]; rfl, by rw [m4]; rfl, by rw [m5]; rfl, by rw [m6]; rfl⟩, ?_, ?_, ?_, ?_, ?_, ?_⟩ <;>
    simp only [powers, List.getD_cons_succ, List.getD_cons_zero, hm]
  · exact R1
  · exact ⟨e2, f2⟩
  · simpa using R3
  · exact ⟨e4, f4⟩
  · exact R5
  · exact ⟨e6, f6⟩

/-- The transition of a step of an agent that only curtails. -/
theorem curtail_transition {o : LFOracle} (ho : ExactLF o) {qp : QP ℝ} (hq : QPExact qp) {pi : ℝ} {s s' : Sim ℝ} {a : Sim.Args ℝ}
    {out : Sim.TransOut ℝ} (hs : SimOf anm6Net (.fin (1/4)) (.fin 100) s) (hc : SameConfig easySim s) (hsoc : SocFin s)
    {l1 l5 pot p2 p4 : ℝ} (ha : CustomInputs a l1 l5 pot p2 p4 0 0 0 0) (h : s.transition ⟨qp, realPF o, pi⟩ a = .ok (s', out)) :
    out.converged = true ∧ ∃ V : Fin 6 → ℂ, Solved s' easyLines (atId V) ∧ (∀ k : Fin 5, 41/50 ≤ ‖V k.succ‖ ∧ ‖V k.succ‖ ≤ 59/50) ∧
      ∀ l, ‖easyRadial.line V l‖ ≤ lineE l := by
  obtain ⟨d0, d1, d2, d3, d4, d5, d6, x2, y2, x4, y4, x6, y6, z, J, g2, g4, g6, z1, z2⟩ := custom_applied hq hs hc hsoc ha h
  obtain ⟨-, L1', L1''⟩ := ha.load1
  obtain ⟨-, L5', L5''⟩ := ha.load5
  have b2 : 0 ≤ x2 := g2.1.pLo
  have b2' : x2 ≤ 3/10 := g2.1.pHi
  obtain rfl : y2 = 0 := closest_flat (easyGen2_region' b2 b2' g2.1.pPot (by norm_num)) g2
  have b4 : 0 ≤ x4 := g4.1.pLo
  obtain rfl : x4 = 0 := le_antisymm g4.1.pPot b4
  obtain rfl : y4 = 0 := closest_flat (easyGen4_region' le_rfl (by norm_num) g4.1.pPot (by norm_num)) g4
  obtain ⟨rfl, rfl⟩ : x6 = 0 ∧ y6 = 0 := by
    have := g6.2 0 0 (easyDes_region (by norm_num) (by norm_num) (by linarith) (by linarith))
    simp only [sqDist, zero_div, sub_zero] at this
    constructor <;> nlinarith [sq_nonneg x6, sq_nonneg y6]
  simp only [mul_zero] at J
  obtain ⟨r1, r2⟩ := inject_run hs hc h J
  have s0 : powersOf (busInj (powers l1 (100 * x2) 0 0 l5 0)) (busInj (powers (l1 / 5) 0 0 0 (l5 / 5) 0)) 0 = 0 := by simp [busInj, powersOf, Complex.ext_iff]
  have s1 : powersOf (busInj (powers l1 (100 * x2) 0 0 l5 0)) (busInj (powers (l1 / 5) 0 0 0 (l5 / 5) 0)) 1 = 0 := by simp [busInj, powersOf, Complex.ext_iff]
  have s2 : ‖powersOf (busInj (powers l1 (100 * x2) 0 0 l5 0)) (busInj (powers (l1 / 5) 0 0 0 (l5 / 5) 0)) 2‖ ≤ 301/1000 := by
    have hb : |(l1 / 5 + 0) / 100| ≤ 2/100 := by rw [abs_le]; constructor <;> linarith
    have ha : |(l1 + 100 * x2) / 100| ≤ 3/10 := by rw [abs_le]; constructor <;> linarith
    have : ‖(⟨(l1 + 100 * x2) / 100, (l1 / 5 + 0) / 100⟩ : ℂ)‖ ≤ 301/1000 := by
      refine norm_le_sq (by norm_num) hb ?_
      rw [← sq_abs ((l1 + 100 * x2) / 100)]
      nlinarith [abs_nonneg ((l1 + 100 * x2) / 100)]
    simpa [busInj, powers, powersOf] using this
  have s3 : powersOf (busInj (powers l1 (100 * x2) 0 0 l5 0)) (busInj (powers (l1 / 5) 0 0 0 (l5 / 5) 0)) 3 = 0 := by
    simp [busInj, powers, powersOf, Complex.ext_iff]
  have s4 : ‖powersOf (busInj (powers l1 (100 * x2) 0 0 l5 0)) (busInj (powers (l1 / 5) 0 0 0 (l5 / 5) 0)) 4‖ ≤ 306/1000 := by
    have hb : |(l5 / 5 + 0) / 100| ≤ 6/100 := by rw [abs_le]; constructor <;> linarith
    have ha : |(l5 + 0) / 100| ≤ 3/10 := by rw [abs_le]; constructor <;> linarith
    have : ‖(⟨(l5 + 0) / 100, (l5 / 5 + 0) / 100⟩ : ℂ)‖ ≤ 306/1000 := by
      refine norm_le_sq (by norm_num) hb ?_
      rw [← sq_abs ((l5 + 0) / 100)]
      nlinarith [abs_nonneg ((l5 + 0) / 100)]
    simpa [busInj, powers, powersOf] using this
  obtain ⟨g, e1, e2, e3, e4⟩ := curtail_settled ho s0 s1 s2 s3 s4
  exact ⟨r1.trans e2, NR.volt g, r2 g e1, e3, curtail_lines (curtail_powers s0 s1 s2 s3 s4) (fun k => (e3 k).1) e4⟩

variable {ρ : Type} {w : ExampleWorld ℝ ρ} {a a' : Anm6 ℝ ρ} {y : EnvDyn ℝ}

/-- An action without reactive powers that leaves the storage unit idle. -/
def Spec.curtailOnly (p2 p4 : ℝ) : List (X ℝ) := [.fin p2, .fin p4, .fin 0, .fin 0, .fin 0, .fin 0]

/-- The inputs of the transition made by a step of the six-bus example. -/
theorem custom_inputs (hn : FairNumpy w.np) (ha : CustomOf w easySim a) (hy : a.env.dyn = some y) (ht : y.terminated = false)
    {p2 p4 q2 q4 p6 q6 : ℝ} {o : Env.StepOut ℝ}
    (h : a.step (customCtx w easySim) [.fin p2, .fin p4, .fin q2, .fin q4, .fin p6, .fin q6] = .ok (a', o)) :
    ∃ args out l1 l5 pot, a.env.sim.transition w.sim args = .ok (a'.env.sim, out) ∧ o.terminated = !out.converged ∧
      CustomInputs args l1 l5 pot p2 p4 q2 q4 p6 q6 := by
  obtain ⟨e1, dd, dd0, h2, -, -, rfl⟩ := anm6_step_ok h
  obtain ⟨vars, args, out, i1, i2, i5, ⟨D1, D2, -⟩, ⟨A, -⟩⟩ := step_transition (custom_env ha) h2 hy ht
  obtain ⟨x1, x2, x3, x4, x5, t, rfl, hx⟩ := customNext_vars hn i1
  simp only [List.forall_mem_cons] at hx
  obtain ⟨j1, j2, j3, j4, j5, -⟩ := hx
  obtain ⟨c0, c1, c2, c3, c4, c5, c6, hcs, k0, k1, k2, k3, k4, k5, k6⟩ := easy_devices (custom_sameConfig ha)
  have a0 : c0.isSlack = true ∧ c0.kind = .classical := by rw [k0]; exact ⟨rfl, rfl⟩
  have a1 : c1.isSlack = false ∧ c1.kind = .load ∧ c1.id = 1 := by rw [k1]; exact ⟨rfl, rfl, rfl⟩
  have a2 : c2.isSlack = false ∧ c2.kind = .renewable ∧ c2.id = 2 := by rw [k2]; exact ⟨rfl, rfl, rfl⟩
  have a3 : c3.isSlack = false ∧ c3.kind = .load ∧ c3.id = 3 := by rw [k3]; exact ⟨rfl, rfl, rfl⟩
  have a4 : c4.isSlack = false ∧ c4.kind = .renewable ∧ c4.id = 4 := by rw [k4]; exact ⟨rfl, rfl, rfl⟩
  have a5 : c5.isSlack = false ∧ c5.kind = .load ∧ c5.id = 5 := by rw [k5]; exact ⟨rfl, rfl, rfl⟩
  have a6 : c6.isSlack = false ∧ c6.kind = .storage ∧ c6.id = 6 := by rw [k6]; exact ⟨rfl, rfl, rfl⟩
  have fl : a.env.sim.devices.filter Device.isLoad = [c1, c3, c5] := by
    simp [hcs, a0, a1, a2, a3, a4, a5, a6, Device.isLoad]
  have fg : a.env.sim.devices.filter Device.isNonSlackGen = [c2, c4] := by
    simp [hcs, a0, a1, a2, a3, a4, a5, a6, Device.isNonSlackGen, Device.isGen]
  have fs : a.env.sim.devices.filter Device.isStorage = [c6] := by
    simp [hcs, a0, a1, a2, a3, a4, a5, a6, Device.isStorage]
  simp only [fl, fg] at D1 D2
  have hsl : slots a.env.sim = [(c2, true), (c4, true), (c2, false), (c4, false), (c6, true), (c6, false)] := by
    simp [slots, fg, fs]
  rw [hsl] at A
  refine ⟨args, out, -10 * x1, -30 * x3, 50 * x4, i2, i5, ⟨?_, by linarith, by linarith⟩, ⟨30 * x2, ?_, by linarith⟩, ⟨?_, by linarith, by linarith⟩,
    ?_, ⟨-30 * x5, ?_, by linarith⟩, ⟨?_, ?_⟩, ⟨?_, ?_⟩, ?_, ?_⟩
  · obtain ⟨v, e1, e2⟩ := D1 0 c1 rfl; cases e1; rw [← a1.2.2]; exact e2
  · obtain ⟨v, e1, e2⟩ := D1 1 c3 rfl; cases e1; rw [← a3.2.2]; exact e2
  · obtain ⟨v, e1, e2⟩ := D1 2 c5 rfl; cases e1; rw [← a5.2.2]; exact e2
  · obtain ⟨v, e1, e2⟩ := D2 0 c2 rfl; cases e1; rw [← a2.2.2]; exact e2
  · obtain ⟨v, e1, e2⟩ := D2 1 c4 rfl; cases e1; rw [← a4.2.2]; exact e2
  · obtain ⟨v, e1, e2⟩ := A 0 c2 true rfl; cases e1; rw [← a2.2.2]; exact e2
  · obtain ⟨v, e1, e2⟩ := A 2 c2 false rfl; cases e1; rw [← a2.2.2]; exact e2
  · obtain ⟨v, e1, e2⟩ := A 1 c4 true rfl; cases e1; rw [← a4.2.2]; exact e2
  · obtain ⟨v, e1, e2⟩ := A 3 c4 false rfl; cases e1; rw [← a4.2.2]; exact e2
  · obtain ⟨v, e1, e2⟩ := A 4 c6 true rfl; cases e1; rw [← a6.2.2]; exact e2
  · obtain ⟨v, e1, e2⟩ := A 5 c6 false rfl; cases e1; rw [← a6.2.2]; exact e2

/-- **C158.** With exactly solved linear systems, no step of the six-bus example ends the episode if the action has no reactive powers and
leaves the storage unit idle. -/
theorem C158_step {o : LFOracle} (ho : ExactLF o) (hw : w.sim.pf = realPF o) (hn : FairNumpy w.np) (ha : CustomOf w easySim a)
    (G : GoodSolvers w.sim (easySim : Sim ℝ)) (hy : a.env.dyn = some y) (ht : y.terminated = false) {p2 p4 : ℝ} {out : Env.StepOut ℝ}
    (h : a.step (customCtx w easySim) (curtailOnly p2 p4) = .ok (a', out)) :
    out.terminated = false ∧ ∃ V : Fin 6 → ℂ, Solved a'.env.sim easyLines (atId V) ∧ ∀ k : Fin 5, 41/50 ≤ ‖V k.succ‖ ∧ ‖V k.succ‖ ≤ 59/50 := by
  have hw' : w.sim = ⟨w.sim.qp, realPF o, w.sim.pi⟩ := by rw [← hw]
  obtain ⟨args, tr, l1, l5, pot, h1, h2, h3⟩ := custom_inputs hn ha hy ht h
  rw [hw'] at h1
  obtain ⟨r1, V, r2, r3, -⟩ := curtail_transition ho G.exact (envOf_simOf (custom_env ha)) (custom_sameConfig ha) ((custom_live hn ha G).2 y hy).1 h3 h1
  exact ⟨by rw [h2, r1]; rfl, V, r2, r3⟩

/-- **C158, episodes.** Such an agent can play on for as long as there are dates. -/
theorem C158_episode {o : LFOracle} (ho : ExactLF o) (hw : w.sim.pf = realPF o) (hn : FairNumpy w.np) (G : GoodSolvers w.sim (easySim : Sim ℝ))
    (ps : List (ℝ × ℝ)) (hp : ∀ p ∈ ps, easyActions.contains (curtailOnly p.1 p.2) true) :
    ∀ {a : Anm6 ℝ ρ} {y : EnvDyn ℝ} {d : ℤ}, CustomOf w easySim a → a.env.dyn = some y → y.terminated = false → a.date = some d → 0 ≤ d →
      d + ps.length * (15 * (60 * 1000000)) < 3652059 * dayMicros →
      ∃ os a', Anm6Episode (customCtx w easySim) a (ps.map fun p => curtailOnly p.1 p.2) os a' ∧ os.length = ps.length ∧
        ∀ out ∈ os, out.terminated = false := by
  induction ps with
  | nil => exact fun _ _ _ _ _ _ => ⟨[], _, .nil _, rfl, by simp⟩
  | cons p ps ih =>
    intro a y d ha hy ht hd h0 hlt
    rw [List.length_cons, Nat.cast_add, Nat.cast_one] at hlt
    obtain ⟨d', hd', hs⟩ := C100_custom_step hn ha G hy (hp p (by simp))
    rw [hd] at hd'
    cases hd'
    rcases hs h0 with ⟨a1, out, h1⟩ | ⟨-, h1⟩
    · obtain ⟨hf, -⟩ := C158_step ho hw hn ha G hy ht h1
      obtain ⟨e, d1, d0, h2, h3, h4, h5⟩ := anm6_step_ok h1
      obtain ⟨y1, hy1, hy2⟩ := C46_flag h2
      rw [hd] at h3
      cases h3
      have htk := custom_tick ha
      obtain ⟨os, a', he, k1, k2⟩ := ih (fun u h => hp u (by simp [h])) (ha.step h1) (y := y1) (d := d + a.tick)
        (by rw [h5]; exact hy1) (by rw [← hf, ← hy2]) (by rw [h5]) (by omega) (by rw [htk]; omega)
      exact ⟨out :: os, a', .cons h1 he, by simp [k1], List.forall_mem_cons.2 ⟨hf, k2⟩⟩
    · omega

/-- An action that such an agent may take. -/
theorem curtail_contains {p2 p4 : ℝ} (h2 : 0 ≤ p2 ∧ p2 ≤ 30) (h4 : 0 ≤ p4 ∧ p4 ≤ 50) : easyActions.contains (curtailOnly p2 p4) true := by
  obtain ⟨h2, h2'⟩ := h2
  obtain ⟨h4, h4'⟩ := h4
  refine ⟨by simp, rfl, ?_, ?_⟩ <;>
    simp only [curtailOnly, easyActions, boxOf, List.map_cons, List.map_nil, List.forall₂_cons, List.forall₂_nil_left_iff, and_true, X.fin_le_fin] <;>
    norm_num [h2, h2', h4, h4']

/-- **C158, from the start.** The environment of `examples/custom_anm6.py` is made and reset; an agent that only curtails then plays up to
a year without a collapse. -/
theorem C158_year {o : LFOracle} (ho : ExactLF o) (hw : w.sim.pf = realPF o) (hn : FairNumpy w.np) (hg : Fair w.rng)
    (hb : BoxTotal w.box) (G : GoodSolvers w.sim (easySim : Sim ℝ)) (seed : Option ℤ) :
    ∃ a a1 obs, mkAnm6 (customCtx w easySim) customArgs = .ok a ∧ a.reset (customCtx w easySim) w.rng seed none = .ok (a1, obs) ∧
      ∀ ps : List (ℝ × ℝ), ps.length ≤ 35040 → (∀ p ∈ ps, (0 ≤ p.1 ∧ p.1 ≤ 30) ∧ 0 ≤ p.2 ∧ p.2 ≤ 50) →
        ∃ os a', Anm6Episode (customCtx w easySim) a1 (ps.map fun p => curtailOnly p.1 p.2) os a' ∧ os.length = ps.length ∧
          ∀ out ∈ os, out.terminated = false := by
  obtain ⟨a, h0⟩ := C100_custom_made hb
  have ha := CustomOf.make h0
  obtain ⟨a1, obs, d, y, -, h, -, hd, hr, hy, ht, -⟩ := C157_reset ho hw hn hg ha G seed none
  refine ⟨a, a1, obs, h0, h, fun ps hl hp => ?_⟩
  obtain ⟨h2, h3⟩ := hr rfl
  have hdm : dayMicros = 24 * 60 * 60 * 1000000 := rfl
  exact C158_episode ho hw hn G ps (fun p h => curtail_contains (hp p h).1 (hp p h).2) (ha.reset h) hy ht hd h2 (by omega)

/-! ### Cases that meet the hypotheses -/

/-- A hundred steps at full production. -/
example : ∃ a1 os a', CustomOf (exactExamples exactOracle) easySim a1 ∧
    Anm6Episode (customCtx (exactExamples exactOracle) easySim) a1 (List.replicate 100 (curtailOnly 30 50)) os a' ∧ os.length = 100 ∧
    ∀ out ∈ os, out.terminated = false := by
  obtain ⟨a, a1, obs, h0, h1, h2⟩ := C158_year exactOracle_exact (w := exactExamples exactOracle) rfl fair_midReal fair_real (fun _ _ => rfl)
    (C83_solvers exactOracle _) (some 7)
  obtain ⟨os, a', h3, h4, h5⟩ := h2 (List.replicate 100 (30, 50)) (by simp) (by
    intro p hp
    obtain rfl := List.eq_of_mem_replicate hp
    norm_num)
  rw [List.map_replicate] at h3
  exact ⟨a1, os, a', (CustomOf.make h0).reset h1, h3, by simpa using h4, h5⟩

end

end Anm
