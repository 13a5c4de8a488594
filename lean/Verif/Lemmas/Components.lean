import Verif.Lemmas.Lists
import Verif.Spec.Network

/-! # Inversion of the constructors: what a successfully built object satisfies -/

set_option linter.unusedSectionVars false

namespace Anm

variable {K : Type} [Field K] [LinearOrder K] [FloorRing K]

theorem readCell_ok {α : Type} {c : Cell K} {dflt : Except PyErr α} {bad : X K → Prop}
    [DecidablePred bad] {e : PyErr} {conv : X K → α} {v : α} :
    readCell c dflt bad e conv = .ok v ↔
      (c = none ∧ dflt = .ok v) ∨ ∃ x, c = some x ∧ ¬ bad x ∧ v = conv x := by
  cases c with
  | none => simp [readCell]
  | some x =>
    simp only [readCell, bind_ok, guardE_ok, pure_ok, reduceCtorEq, false_and, Option.some.injEq,
      false_or]
    constructor
    · rintro ⟨_, h, rfl⟩; exact ⟨x, rfl, h, rfl⟩
    · rintro ⟨y, rfl, h, rfl⟩; exact ⟨(), h, rfl⟩

theorem readCell_id {c : Cell K} {y : X K} {bad : X K → Prop}
    [DecidablePred bad] {e : PyErr} {v : X K}
    (h : readCell c (pure y) bad e _root_.id = .ok v) :
    (c = none ∧ v = y) ∨ (c = some v ∧ ¬ bad v) := by
  rcases readCell_ok.1 h with ⟨h1, h2⟩ | ⟨x, h1, h2, h3⟩
  · exact Or.inl ⟨h1, (pure_ok.1 h2).symm⟩
  · simp only [id] at h3; subst h3; exact Or.inr ⟨h1, h2⟩

theorem readCell_conv {c : Cell K} {y : X K} {bad : X K → Prop}
    [DecidablePred bad] {e : PyErr} {v : X K} {f : X K → X K}
    (h : readCell c (pure y) bad e f = .ok v) :
    (c = none ∧ v = y) ∨ (∃ x, c = some x ∧ ¬ bad x ∧ v = f x) := by
  rcases readCell_ok.1 h with ⟨h1, h2⟩ | h
  · exact Or.inl ⟨h1, (pure_ok.1 h2).symm⟩
  · exact Or.inr h

theorem readCell_throw {c : Cell K} {bad : X K → Prop}
    [DecidablePred bad] {e e' : PyErr} {α : Type} {v : α} {f : X K → α}
    (h : readCell c (throw e') bad e f = .ok v) : ∃ x, c = some x ∧ ¬ bad x ∧ v = f x := by
  rcases readCell_ok.1 h with ⟨_, h2⟩ | h
  · simp at h2
  · exact h

/-- What `deviceCommon` guarantees. -/
structure CommonInv (row : DevRow K) (busIds : List ℤ) (id bus : ℤ) (slack : Bool) : Prop where
  id_eq : ∃ x, row .devId = some x ∧ x.toInt = .ok id
  bus_eq : ∃ x, row .busId = some x ∧ inIds x busIds ∧ x.toInt = .ok bus
  slack_eq : ∃ t, row .devType = some t ∧ inIds t [-1, 0, 1, 2, 3] ∧ slack = decide (X.feq t 0)

theorem endpoint_ok {c : Cell K} {ids : List ℤ} {e : PyErr} {i : ℤ}
    (h : endpoint c ids e = .ok i) : ∃ x, c = some x ∧ inIds x ids ∧ x.toInt = .ok i := by
  unfold endpoint at h
  split at h
  · simp at h
  · simp only [bind_ok, guardE_ok] at h
    obtain ⟨_, h1, h2⟩ := h
    exact ⟨_, rfl, h1, h2⟩

theorem deviceCommon_ok {row : DevRow K} {busIds : List ℤ} {id bus : ℤ} {slack : Bool}
    (h : deviceCommon row busIds = .ok (id, bus, slack)) : CommonInv row busIds id bus slack := by
  simp only [deviceCommon, bind_ok, pure_ok, Prod.mk.injEq] at h
  obtain ⟨idc, hidc, id', hid, bus', hbus, slack', hs, rfl, rfl, rfl⟩ := h
  obtain ⟨x, hx, _, rfl⟩ := readCell_throw hidc
  obtain ⟨t, ht, h1, h2⟩ := readCell_throw hs
  exact ⟨⟨_, hx, hid⟩, endpoint_ok hbus, ⟨t, ht, not_not.1 h1, h2⟩⟩

/-- What `mkLoad` guarantees. -/
structure LoadInv (row : DevRow K) (busIds : List ℤ) (b : X K) (d : Device K) : Prop where
  common : CommonInv row busIds d.id d.busId d.isSlack
  kind : d.kind = .load
  ty : cellEq (row .devType) (some (.fin (-1)))
  qp : row .qp = some d.qpRatio
  pMax : (row .pmax = none ∧ d.pMax = 0) ∨ (row .pmax = some d.pMax ∧ ¬ X.fin 0 < d.pMax)
  pMin : d.pMin = toPu (row .pmin) b .ninf
  ord : ¬ d.pMax < d.pMin
  qMax : d.qMax = d.pMax * d.qpRatio
  qMin : d.qMin = d.pMin * d.qpRatio
  soc : d.soc = none

theorem mkLoad_ok {row : DevRow K} {busIds : List ℤ} {b : X K} {d : Device K}
    (h : mkLoad row busIds b = .ok d) : LoadInv row busIds b d := by
  simp only [mkLoad, bind_ok, guardE_ok, pure_ok] at h
  obtain ⟨⟨id, bus, slack⟩, hc, _, hty, qp, hqp, pMax, hpMax, _, hord, rfl⟩ := h
  obtain ⟨x, hx, _, rfl⟩ := readCell_throw hqp
  exact ⟨deviceCommon_ok hc, rfl, hty, hx, readCell_id hpMax, rfl, hord, rfl, rfl, rfl⟩

/-- What `mkGen` guarantees. -/
structure GenInv (kind : DevKind) (row : DevRow K) (busIds : List ℤ) (b : X K) (d : Device K) :
    Prop where
  common : CommonInv row busIds d.id d.busId d.isSlack
  kind : d.kind = kind
  pMax : (row .pmax = none ∧ d.pMax = .pinf) ∨
    (∃ x, row .pmax = some x ∧ ¬ (x < 0 ∧ d.isSlack = false) ∧ d.pMax = x / b)
  pMin : (row .pmin = none ∧ d.pMin = if d.isSlack = true then .ninf else 0) ∨
    (∃ x, row .pmin = some x ∧ ¬ (x < 0 ∧ d.isSlack = false) ∧ d.pMin = x / b)
  ordP : ¬ d.pMax < d.pMin
  qMax : d.qMax = toPu (row .qmax) b .pinf
  qMin : d.qMin = toPu (row .qmin) b .ninf
  ordQ : ¬ d.qMax < d.qMin
  pPlus : d.pPlus = toPu (row .pPlus) b d.pMax
  pPlus_lo : ¬ d.pPlus < d.pMin
  pPlus_hi : ¬ d.pMax < d.pPlus
  qPlus : d.qPlus = toPu (row .qPlus) b d.qMax
  qPlus_hi : ¬ d.qMax < d.qPlus
  qMinus : d.qMinus = toPu (row .qMinus) b d.qMin
  qMinus_lo : ¬ d.qMinus < d.qMin
  ordQpm : ¬ d.qPlus < d.qMinus
  tau1 : d.tau1 = if X.feq d.pMax d.pPlus then 0 else (d.qPlus - d.qMax) / (d.pMax - d.pPlus)
  tau2 : d.tau2 = if X.feq d.pMax d.pPlus then 0 else (d.qMinus - d.qMin) / (d.pMax - d.pPlus)
  rho1 : d.rho1 = d.qMax - d.tau1 * d.pPlus
  rho2 : d.rho2 = d.qMin - d.tau2 * d.pPlus
  pPot : d.pPot = X.clip d.pMax d.pMin d.pMax
  soc : d.soc = none

theorem mkGen_ok {kind : DevKind} {row : DevRow K} {busIds : List ℤ} {b : X K} {d : Device K}
    (h : mkGen kind row busIds b = .ok d) : GenInv kind row busIds b d := by
  simp only [mkGen, bind_ok, guardE_ok, pure_ok] at h
  obtain ⟨⟨id, bus, slack⟩, hc, pMax, hpMax, pMin, hpMin, _, h1, _, h2, _, h3, _, h4, _, h5, _, h6,
    _, h7, rfl⟩ := h
  refine ⟨deviceCommon_ok hc, rfl, readCell_conv hpMax, readCell_conv hpMin, h1, rfl, rfl, h2, rfl,
    h3, h4, rfl, h5, rfl, h6, h7, ?_, ?_, ?_, ?_, rfl, rfl⟩
  all_goals dsimp only <;> split <;> rfl

/-- What `mkStorage` guarantees. -/
structure StorageInv (row : DevRow K) (busIds : List ℤ) (b : X K) (d : Device K) : Prop where
  common : CommonInv row busIds d.id d.busId d.isSlack
  kind : d.kind = .storage
  pMax : (row .pmax = none ∧ d.pMax = .pinf) ∨
    (∃ x, row .pmax = some x ∧ ¬ x < 0 ∧ d.pMax = x / b)
  pMin : (row .pmin = none ∧ d.pMin = .ninf) ∨
    (∃ x, row .pmin = some x ∧ ¬ X.fin 0 < x ∧ d.pMin = x / b)
  ordP : ¬ d.pMax < d.pMin
  qMax : d.qMax = toPu (row .qmax) b .pinf
  qMin : d.qMin = toPu (row .qmin) b .ninf
  ordQ : ¬ d.qMax < d.qMin
  pPlus : d.pPlus = toPu (row .pPlus) b d.pMax
  pPlus_lo : ¬ d.pPlus < d.pMin
  pPlus_hi : ¬ d.pMax < d.pPlus
  pMinus : d.pMinus = toPu (row .pMinus) b d.pMin
  pMinus_lo : ¬ d.pMinus < d.pMin
  pMinus_hi : ¬ d.pMax < d.pMinus
  ordPpm : ¬ d.pPlus < d.pMinus
  qPlus : d.qPlus = toPu (row .qPlus) b d.qMax
  qPlus_hi : ¬ d.qMax < d.qPlus
  qMinus : d.qMinus = toPu (row .qMinus) b d.qMin
  qMinus_lo : ¬ d.qMinus < d.qMin
  ordQpm : ¬ d.qPlus < d.qMinus
  tau1 : d.tau1 = if X.feq d.pMax d.pPlus then 0 else (d.qPlus - d.qMax) / (d.pMax - d.pPlus)
  tau2 : d.tau2 = if X.feq d.pMax d.pPlus then 0 else (d.qMinus - d.qMin) / (d.pMax - d.pPlus)
  tau3 : d.tau3 = if X.feq d.pMin d.pMinus then 0 else (d.qMin - d.qMinus) / (d.pMinus - d.pMin)
  tau4 : d.tau4 = if X.feq d.pMin d.pMinus then 0 else (d.qMax - d.qPlus) / (d.pMinus - d.pMin)
  rho1 : d.rho1 = d.qMax - d.tau1 * d.pPlus
  rho2 : d.rho2 = d.qMin - d.tau2 * d.pPlus
  rho3 : d.rho3 = d.qMin - d.tau3 * d.pMinus
  rho4 : d.rho4 = d.qMax - d.tau4 * d.pMinus
  socMin : (row .socMin = none ∧ d.socMin = 0) ∨
    (∃ x, row .socMin = some x ∧ ¬ x < 0 ∧ d.socMin = x / b)
  socMax : ∃ x, row .socMax = some x ∧ ¬ x < 0 ∧ d.socMax = x / b
  ordSoc : ¬ d.socMax < d.socMin
  eff : (row .eff = none ∧ d.eff = 1) ∨
    (row .eff = some d.eff ∧ ¬ (d.eff < 0 ∨ X.fin 1 < d.eff))
  soc : d.soc = none

theorem mkStorage_ok {row : DevRow K} {busIds : List ℤ} {b : X K} {d : Device K}
    (h : mkStorage row busIds b = .ok d) : StorageInv row busIds b d := by
  simp only [mkStorage, bind_ok, guardE_ok, pure_ok] at h
  obtain ⟨⟨id, bus, slack⟩, hc, pMax, hpMax, pMin, hpMin, _, h1, _, h2, _, h3, _, h4, _, h5, _, h6,
    _, h7, _, h8, _, h9, _, h10, socMin, hsMin, socMax, hsMax, _, h11, eff, heff, rfl⟩ := h
  refine ⟨deviceCommon_ok hc, rfl, readCell_conv hpMax, readCell_conv hpMin, h1, rfl, rfl, h2, rfl,
    h3, h4, rfl, h5, h6, h7, rfl, h8, rfl, h9, h10, ?_, ?_, ?_, ?_, ?_, ?_, ?_, ?_,
    readCell_conv hsMin, readCell_throw hsMax, h11, readCell_id heff, rfl⟩
  all_goals dsimp only <;> split <;> rfl

/-- What `mkLine` guarantees. -/
structure LineInv (row : BranchRow K) (base : X K) (ids : List ℤ) (l : Line K) : Prop where
  f : ∃ x, row .fBus = some x ∧ inIds x ids ∧ x.toInt = .ok l.fBus
  t : ∃ x, row .tBus = some x ∧ inIds x ids ∧ x.toInt = .ok l.tBus
  r : (row .r = none ∧ l.r = 0) ∨ (row .r = some l.r ∧ ¬ l.r < 0)
  x : (row .x = none ∧ l.x = 0) ∨ (row .x = some l.x ∧ ¬ l.x < 0)
  rx : ¬ (X.feq l.r 0 ∧ X.feq l.x 0)
  b : (row .b = none ∧ l.b = 0) ∨ (row .b = some l.b ∧ ¬ l.b < 0)
  rate : (row .rate = none ∧ l.rate = .pinf) ∨ (∃ x, row .rate = some x ∧ ¬ x < 0 ∧ l.rate = x / base)
  tap : (row .tap = none ∧ l.tapMagn = 1) ∨ (row .tap = some l.tapMagn ∧ ¬ l.tapMagn ≤ 0)
  shift : (row .shift = none ∧ l.shiftDeg = 0) ∨
    (row .shift = some l.shiftDeg ∧ ¬ (l.shiftDeg < 0 ∨ X.fin 360 < l.shiftDeg))

theorem mkLine_ok {row : BranchRow K} {b : X K} {ids : List ℤ} {l : Line K}
    (h : mkLine row b ids = .ok l) : LineInv row b ids l := by
  simp only [mkLine, bind_ok, guardE_ok, pure_ok] at h
  obtain ⟨f, hf, t, ht, r, hr, x, hx, _, hrx, bb, hb, rate, hrate, tap, htap, sh, hsh, rfl⟩ := h
  exact ⟨endpoint_ok hf, endpoint_ok ht, readCell_id hr, readCell_id hx, hrx, readCell_id hb,
    readCell_conv hrate, readCell_id htap, readCell_id hsh⟩

/-- What `mkBus` guarantees. -/
structure BusInv (row : BusRow K) (b : Bus K) : Prop where
  id : cellInt (row .busId) = .ok b.id
  ty : ∃ t, cellInt (row .busType) = .ok t ∧ (t = 0 ∨ t = 1) ∧ b.isSlack = decide (t = 0)
  baseKV : row .baseKV = some b.baseKV ∧ ¬ b.baseKV ≤ 0
  vMax : row .vmax = some b.vMax ∧ ¬ b.vMax < 0
  vMin : row .vmin = b.vMin
  vMin_none : b.vMin = none → b.isSlack = true
  vMin_some : ∀ m, b.vMin = some m → b.isSlack = false → ¬ m < 0 ∧ ¬ b.vMax < m
  dyn : b.p = .nan ∧ b.q = .nan

theorem mkBus_ok {row : BusRow K} {b : Bus K} (h : mkBus row = .ok b) : BusInv row b := by
  simp only [mkBus, bind_ok, guardE_ok, pure_ok] at h
  obtain ⟨id, hid, ty, hty, _, hty', kv, hkv, vMax, hvMax, vMin, hvMin, _, hord, rfl⟩ := h
  obtain ⟨kv', h1, h2, rfl⟩ := readCell_throw hkv
  obtain ⟨vm', h3, h4, rfl⟩ := readCell_throw hvMax
  refine ⟨hid, ⟨ty, hty, hty', rfl⟩, ⟨h1, h2⟩, ⟨h3, h4⟩, ?_, ?_, ?_, rfl, rfl⟩
  · rcases readCell_ok.1 hvMin with ⟨h5, h6⟩ | ⟨x, h5, h6, rfl⟩
    · split at h6 <;> simp_all
    · exact h5
  · rcases readCell_ok.1 hvMin with ⟨h5, h6⟩ | ⟨x, h5, h6, rfl⟩
    · split at h6 <;> simp_all
    · simp
  · rintro m rfl hsl
    rcases readCell_ok.1 hvMin with ⟨h5, h6⟩ | ⟨x, h5, h6, h7⟩
    · split at h6 <;> simp_all
    · simp only [Option.some.injEq] at h7
      subst h7
      refine ⟨fun h => h6 ⟨h, hsl⟩, ?_⟩
      rcases hord with h8 | h8
      · simp_all
      · exact h8 m rfl

end Anm
