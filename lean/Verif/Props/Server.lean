import Mathlib.Data.List.Nodup
import Mathlib.Data.List.Induction
import Verif.Spec.Server

/-! # C70: the rendering server -/

namespace Anm
open Spec

variable {M : Type} {label : M → Except PyErr String} {es pre mid post : List (WsEvent M)} {e : WsEvent M} {c : ℕ}

theorem run_append (w : Ws M) (a b : List (WsEvent M)) :
    w.run label (a ++ b) = (((w.run label a).1.run label b).1, (w.run label a).2 ++ ((w.run label a).1.run label b).2) := by
  induction a generalizing w with
  | nil => rfl
  | cons x a ih => simp [Ws.run, ih, List.append_assoc]

theorem run_single (w : Ws M) (e : WsEvent M) : w.run label [e] = w.handle label e := by
  simp [Ws.run]

theorem connected_snoc : Connected label (es ++ [e]) c ↔ e = .connect c ∨ (Connected label es c ∧ ¬ Ends label c e) := by
  constructor
  · rintro ⟨p, q, h, hq⟩
    rcases List.eq_nil_or_concat q with rfl | ⟨q, x, rfl⟩
    · left
      have := congrArg List.getLast? h
      simpa using this
    · right
      rw [List.concat_eq_append] at h hq
      rw [show p ++ .connect c :: (q ++ [x]) = (p ++ .connect c :: q) ++ [x] by simp] at h
      obtain ⟨h1, h2⟩ := List.append_inj' h rfl
      simp only [List.cons.injEq, and_true] at h2
      subst h2
      exact ⟨⟨p, q, h1, fun y hy => hq y (by simp [hy])⟩, hq e (by simp)⟩
  · rintro (rfl | ⟨⟨p, q, rfl, hq⟩, he⟩)
    · exact ⟨es, [], rfl, by simp⟩
    · refine ⟨p, q ++ [e], by simp, fun y hy => ?_⟩
      rcases List.mem_append.1 hy with hy | hy
      · exact hq y hy
      · rw [List.mem_singleton.1 hy]; exact he

theorem connected_mem (h : Connected label es c) : .connect c ∈ es := by
  obtain ⟨p, q, rfl, _⟩ := h
  simp

theorem plausible_prefix (h : Plausible label (es ++ post)) : Plausible label es := by
  intro p x q hx
  have := h p x (q ++ post) (by rw [hx]; simp)
  exact this

theorem plausible_last : Plausible label (es ++ [e]) → match e with
    | .connect c => .connect c ∉ es
    | .message c _ => Connected label es c
    | .leave c => Connected label es c
    | .fail => True := fun h => h es e [] rfl

theorem labelled_append (l : String) (a b : List (WsEvent M)) :
    labelled label l (a ++ b) = labelled label l a ++ labelled label l b := by
  simp [labelled]

theorem sentTo_append (c : ℕ) (a b : List (ℕ × M)) : sentTo c (a ++ b) = sentTo c a ++ sentTo c b := by
  simp [sentTo]

/-- What is known about the server after a sequence of events. -/
structure WsInv (label : M → Except PyErr String) (es : List (WsEvent M)) (w : Ws M) : Prop where
  peers : w.peers = w.clients
  nodup : w.clients.Nodup
  conn : ∀ c, c ∈ w.clients ↔ Connected label es c
  init : w.initMessage = (labelled label "init" es).getLast?
  client : w.initMessage.isSome → ∃ c0, w.initClient = some c0 ∧ .connect c0 ∈ es

theorem inv_leave {w : Ws M} (I : WsInv label es w) {c : ℕ} (he : ∀ c', Ends label c' e ↔ c' = c)
    (hne : ∀ c', e ≠ .connect c') (hl : labelled label "init" [e] = []) :
    WsInv label (es ++ [e]) { w.clientLeft (some c) with peers := w.peers.erase c } where
  peers := by simp [Ws.clientLeft, I.peers]
  nodup := I.nodup.erase c
  conn := by
    intro c'
    rw [connected_snoc, ← I.conn, he]
    simp only [Ws.clientLeft, hne, false_or]
    rw [I.nodup.mem_erase_iff, and_comm]
  init := by rw [labelled_append, hl, List.append_nil]; exact I.init
  client := by
    intro h
    obtain ⟨c0, h1, h2⟩ := I.client h
    exact ⟨c0, h1, by simp [h2]⟩

theorem inv_run (h : Plausible label es) : WsInv label es ((({} : Ws M).run label es).1) := by
  induction es using List.reverseRecOn with
  | nil =>
    refine ⟨rfl, List.nodup_nil, ?_, rfl, ?_⟩
    · intro c
      simp only [Ws.run, List.not_mem_nil, false_iff]
      rintro ⟨p, q, h, _⟩
      simp at h
    · intro h; simp [Ws.run] at h
  | append_singleton es e ih =>
    have I := ih (plausible_prefix h)
    have hlast := plausible_last h
    rw [run_append, run_single]
    set w := (({} : Ws M).run label es).1 with hw
    show WsInv label (es ++ [e]) (w.handle label e).1
    cases e with
    | connect c =>
      simp only at hlast
      have hc : c ∉ w.clients := fun hc => hlast (connected_mem ((I.conn c).1 hc))
      simp only [Ws.handle, Ws.newClient, if_neg hc]
      refine ⟨by simp [I.peers], ?_, ?_, ?_, ?_⟩
      · exact List.nodup_append.2 ⟨I.nodup, List.nodup_singleton c, by
          rintro a ha b hb rfl; rw [List.mem_singleton.1 hb] at ha; exact hc ha⟩
      · intro c'
        rw [connected_snoc, ← I.conn]
        simp only [List.mem_append, List.mem_singleton, WsEvent.connect.injEq, Ends, not_false_eq_true, and_true]
        rw [or_comm, eq_comm]
      · rw [labelled_append]; simpa [labelled] using I.init
      · intro h
        obtain ⟨c0, h1, h2⟩ := I.client h
        exact ⟨c0, h1, by simp [h2]⟩
    | leave c =>
      exact inv_leave I (fun c' => eq_comm) (by simp) (by simp [labelled])
    | fail =>
      refine ⟨I.peers, I.nodup, ?_, ?_, ?_⟩
      · intro c
        rw [connected_snoc]
        simpa [Ends, Ws.handle, Ws.clientLeft] using I.conn c
      · rw [labelled_append]; simpa [labelled, Ws.handle, Ws.clientLeft] using I.init
      · intro h
        obtain ⟨c0, h1, h2⟩ := I.client h
        exact ⟨c0, h1, by simp [h2]⟩
    | message c m =>
      simp only at hlast
      cases hl : label m with
      | error x =>
        have : (w.handle label (.message c m)).1 = { w.clientLeft (some c) with peers := w.peers.erase c } := by
          simp [Ws.handle, Ws.msgReceived, hl, bind, Except.bind, Ws.clientLeft]
        rw [this]
        exact inv_leave I (fun c' => by simp [Ends, hl, eq_comm]) (by simp) (by simp [labelled, hl])
      | ok l =>
        have hconn : ∀ c', Connected label (es ++ [.message c m]) c' ↔ Connected label es c' := by
          intro c'
          rw [connected_snoc]
          simp [Ends, hl]
        by_cases h1 : l = "init"
        · have : (w.handle label (.message c m)).1 = { w with initClient := some c, initMessage := some m } := by
            simp [Ws.handle, Ws.msgReceived, hl, bind, Except.bind, pure, Except.pure, h1]
          rw [this]
          refine ⟨I.peers, I.nodup, fun c' => by rw [hconn]; exact I.conn c', ?_, ?_⟩
          · rw [labelled_append]; simp [labelled, hl, h1]
          · intro _
            exact ⟨c, rfl, by simp [connected_mem hlast]⟩
        · have : (w.handle label (.message c m)).1 = w := by
            by_cases h2 : l = "update" <;>
              simp [Ws.handle, Ws.msgReceived, hl, bind, Except.bind, pure, Except.pure, h1, h2]
          rw [this]
          refine ⟨I.peers, I.nodup, fun c' => by rw [hconn]; exact I.conn c', ?_, ?_⟩
          · rw [labelled_append]
            simpa [labelled, hl, h1] using I.init
          · intro h
            obtain ⟨c0, g1, g2⟩ := I.client h
            exact ⟨c0, g1, by simp [g2]⟩

/-- **C70**, the table: the keys of the table of clients are exactly the connected clients, each once. -/
theorem C70_table (h : Plausible label es) :
    let w := (({} : Ws M).run label es).1
    w.clients.Nodup ∧ ∀ c, c ∈ w.clients ↔ Connected label es c :=
  ⟨(inv_run h).nodup, (inv_run h).conn⟩

/-- To whom an event sends something. -/
theorem handle_receiver {w : Ws M} {m : M} (h : (c, m) ∈ (w.handle label e).2) : c ∈ w.peers ∨ e = .connect c := by
  cases e with
  | connect c' =>
    simp only [Ws.handle, Ws.newClient] at h
    split at h
    · split at h
      · simp only [List.mem_singleton, Prod.mk.injEq] at h
        exact .inr (by rw [h.1])
      · simp at h
    · simp at h
  | leave c' => simp [Ws.handle] at h
  | fail => simp [Ws.handle] at h
  | message c' m' =>
    left
    cases hl : label m' with
    | error x => simp [Ws.handle, Ws.msgReceived, hl, bind, Except.bind] at h
    | ok l =>
      simp only [Ws.handle, Ws.msgReceived, hl, bind, Except.bind, pure, Except.pure] at h
      by_cases h1 : l = "init"
      · simp [h1] at h
      · by_cases h2 : l = "update"
        · simp [h2] at h
          exact h.1
        · simp [h1, h2] at h

theorem sentTo_nil {out : List (ℕ × M)} (h : ∀ m, (c, m) ∉ out) : sentTo c out = [] := by
  simp only [sentTo, List.map_eq_nil_iff, List.filter_eq_nil_iff, decide_eq_true_eq]
  rintro ⟨c', m⟩ hm rfl
  exact h m hm

theorem sentTo_broadcast {l : List ℕ} (hn : l.Nodup) (hc : c ∈ l) (m : M) : sentTo c (l.map (·, m)) = [m] := by
  induction l with
  | nil => simp at hc
  | cons a l ih =>
    obtain ⟨h1, h2⟩ := List.nodup_cons.1 hn
    rcases List.mem_cons.1 hc with rfl | hc'
    · have : sentTo c (l.map (·, m)) = [] := sentTo_nil (by simpa using h1)
      rw [List.map_cons, show ((c, m) :: l.map (·, m)) = [(c, m)] ++ l.map (·, m) from rfl, sentTo_append, this]
      simp [sentTo]
    · have hne : a ≠ c := by rintro rfl; exact h1 hc'
      rw [List.map_cons, show ((a, m) :: l.map (·, m)) = [(a, m)] ++ l.map (·, m) from rfl, sentTo_append, ih h2 hc']
      simp [sentTo, hne]

/-- Nothing is sent to a client before it connects. -/
theorem sentTo_before (h : Plausible label es) (hc : .connect c ∉ es) : sentTo c (({} : Ws M).run label es).2 = [] := by
  induction es using List.reverseRecOn with
  | nil => rfl
  | append_singleton es e ih =>
    have hp := plausible_prefix h
    have I := inv_run hp
    rw [run_append, run_single, sentTo_append, ih hp fun hh => hc (by simp [hh]), List.nil_append]
    refine sentTo_nil fun m hm => ?_
    rcases handle_receiver hm with h1 | rfl
    · rw [I.peers, I.conn] at h1
      exact hc (by simp [connected_mem h1])
    · exact hc (by simp)

/-- **C70.**  Client `c` connects after the events `pre`, and `mid` happens while it is connected.  Then it
is sent: when it connects, the last configuration received before, if there is one; and then every update
received since, once and in order; and nothing else. -/
theorem C70_received (h : Plausible label (pre ++ .connect c :: mid)) (hm : ∀ e ∈ mid, ¬ Ends label c e) :
    sentTo c (({} : Ws M).run label (pre ++ .connect c :: mid)).2 =
      (labelled label "init" pre).getLast?.toList ++ labelled label "update" mid := by
  induction mid using List.reverseRecOn with
  | nil =>
    have hp := plausible_prefix h
    have hlast : .connect c ∉ pre := plausible_last h
    have I := inv_run hp
    rw [run_append, run_single, sentTo_append, sentTo_before hp hlast, List.nil_append]
    rw [show labelled label "update" ([] : List (WsEvent M)) = [] from rfl, List.append_nil, ← I.init]
    have hcl := I.client
    simp only [Ws.handle, Ws.newClient]
    cases hi : (({} : Ws M).run label pre).1.initMessage with
    | none => rfl
    | some m =>
      obtain ⟨c0, h1, h2⟩ := hcl (by simp [hi])
      rw [h1]
      have : c ≠ c0 := by rintro rfl; exact hlast h2
      simp [this, sentTo]
  | append_singleton mid e ih =>
    have e1 : pre ++ .connect c :: (mid ++ [e]) = (pre ++ .connect c :: mid) ++ [e] := by simp
    rw [e1] at h ⊢
    have hp := plausible_prefix h
    have I := inv_run hp
    have hcon : Connected label (pre ++ .connect c :: mid) c := ⟨pre, mid, rfl, fun x hx => hm x (by simp [hx])⟩
    rw [run_append, run_single, sentTo_append, ih hp fun x hx => hm x (by simp [hx]), labelled_append, List.append_assoc]
    congr 2
    set w := (({} : Ws M).run label (pre ++ .connect c :: mid)).1
    have hcw : c ∈ w.peers := by rw [I.peers, I.conn]; exact hcon
    have hnw : w.peers.Nodup := by rw [I.peers]; exact I.nodup
    have hlast := plausible_last h
    cases e with
    | connect c' =>
      have hne : c' ≠ c := by rintro rfl; exact hlast (by simp)
      have : sentTo c (w.handle label (.connect c')).2 = [] := by
        refine sentTo_nil fun m hmm => ?_
        simp only [Ws.handle, Ws.newClient] at hmm
        split at hmm
        · split at hmm
          · simp only [List.mem_singleton, Prod.mk.injEq] at hmm
            exact hne hmm.1.symm
          · simp at hmm
        · simp at hmm
      rw [this]
      rfl
    | leave c' => rfl
    | fail => rfl
    | message c' m =>
      cases hl : label m with
      | error x => simp [Ws.handle, Ws.msgReceived, hl, bind, Except.bind, labelled, sentTo]
      | ok l =>
        simp only [Ws.handle, Ws.msgReceived, hl, bind, Except.bind, pure, Except.pure]
        by_cases h1 : l = "init"
        · simp [h1, labelled, hl, sentTo]
        · by_cases h2 : l = "update"
          · subst h2
            simp only [h1, if_false, if_true, labelled, List.filterMap_cons, hl, List.filterMap_nil]
            exact sentTo_broadcast hnw hcw m
          · simp [h1, h2, labelled, hl, sentTo]

/-- Nothing more is sent to a client that has left. -/
theorem C70_left (h : Plausible label (es ++ post)) (hc : .connect c ∈ es) (hl : ¬ Connected label es c) :
    sentTo c (({} : Ws M).run label (es ++ post)).2 = sentTo c (({} : Ws M).run label es).2 := by
  induction post using List.reverseRecOn with
  | nil => simp
  | append_singleton post e ih =>
    rw [← List.append_assoc] at h ⊢
    have hp := plausible_prefix h
    have I := inv_run hp
    rw [run_append, run_single, sentTo_append, ih hp]
    have hnc : ∀ post', Plausible label (es ++ post') → ¬ Connected label (es ++ post') c := by
      intro post'
      induction post' using List.reverseRecOn with
      | nil => intro _; simpa using hl
      | append_singleton post' e ih =>
        rw [← List.append_assoc]
        intro hp'
        rw [connected_snoc]
        rintro (rfl | ⟨h1, _⟩)
        · exact (plausible_last hp') (by simp [hc])
        · exact ih (plausible_prefix hp') h1
    suffices e0 : sentTo c ((({} : Ws M).run label (es ++ post)).1.handle label e).2 = [] by
      rw [e0, List.append_nil]
    refine sentTo_nil fun m hm => ?_
    rcases handle_receiver hm with h1 | rfl
    · rw [I.peers, I.conn] at h1
      exact hnc post hp h1
    · exact (plausible_last h) (by simp [hc])

/-- **C70**, what it leaves open.  A client that connects before any configuration was received is never sent a configuration, not
even when it is received later. -/
theorem C70_early_viewer (h : Plausible label (pre ++ .connect c :: mid)) (hm : ∀ e ∈ mid, ¬ Ends label c e)
    (h0 : labelled label "init" pre = []) :
    ∀ m ∈ sentTo c (({} : Ws M).run label (pre ++ .connect c :: mid)).2, label m = .ok "update" := by
  rw [C70_received h hm, h0]
  simp only [List.getLast?_nil, Option.toList_none, List.nil_append, labelled, List.mem_filterMap]
  rintro m ⟨e, _, he⟩
  cases e with
  | message c' m' =>
    simp only at he
    split at he
    · simp only [Option.some.injEq] at he; rwa [← he]
    · simp at he
  | connect _ => simp at he
  | leave _ => simp at he
  | fail => simp at he

theorem plausible_snoc (h : Plausible label es) (he : match e with
    | .connect c => .connect c ∉ es
    | .message c _ => Connected label es c
    | .leave c => Connected label es c
    | .fail => True) : Plausible label (es ++ [e]) := by
  intro p x q hx
  rcases List.eq_nil_or_concat q with rfl | ⟨q, y, rfl⟩
  · obtain ⟨h1, h2⟩ := List.append_inj' hx rfl
    simp only [List.cons.injEq, and_true] at h2
    subst h1 h2
    exact he
  · rw [List.concat_eq_append, show p ++ x :: (q ++ [y]) = (p ++ x :: q) ++ [y] by simp] at hx
    obtain ⟨h1, _⟩ := List.append_inj' hx rfl
    exact h p x q h1

theorem plausible_nil : Plausible label ([] : List (WsEvent M)) := by
  intro p x q h
  simp at h

/-- Message 0 is a configuration, messages 1 and 2 are updates, the others cannot be parsed. -/
def demoLabel : ℕ → Except PyErr String
  | 0 => .ok "init"
  | 1 => .ok "update"
  | 2 => .ok "update"
  | _ => .error .keyError

/-- A simulation (client 1) and three viewers.  Viewer 2 is too early, viewer 4 sends nonsense. -/
def demoEvents : List (WsEvent ℕ) :=
  ((((((((([] ++ [.connect 1]) ++ [.connect 2]) ++ [.message 1 0]) ++ [.message 1 1]) ++ [.connect 3]) ++ [.connect 4]) ++
    [.message 4 7]) ++ [.message 1 2]) ++ [.leave 2])

theorem demoEvents_plausible : Plausible demoLabel demoEvents := by
  unfold demoEvents
  repeat' apply plausible_snoc
  · exact plausible_nil
  all_goals simp only [connected_snoc, Ends, demoLabel]
  all_goals simp

/-- A case of `C70_table`: after these events the simulation and viewer 3 are connected. -/
example : Plausible demoLabel demoEvents ∧ ((({} : Ws ℕ).run demoLabel demoEvents).1).clients = [1, 3] :=
  ⟨demoEvents_plausible, by decide +kernel⟩

/-- A case of `C70_received` and of `C70_left`: the messages sent to the four clients. -/
example : (List.map (fun c => sentTo c (({} : Ws ℕ).run demoLabel demoEvents).2) [1, 2, 3, 4]) =
    [[1, 2], [1, 2], [0, 2], [0]] := by decide +kernel

/-- A case of the hypotheses of `C70_received`, with a configuration before and an update after. -/
example : ∃ (pre mid : List (WsEvent ℕ)), pre ++ .connect 3 :: mid = demoEvents ∧ (∀ e ∈ mid, ¬ Ends demoLabel 3 e) ∧
    (labelled demoLabel "init" pre).getLast? = some 0 ∧ labelled demoLabel "update" mid = [2] :=
  ⟨[.connect 1, .connect 2, .message 1 0, .message 1 1], [.connect 4, .message 4 7, .message 1 2, .leave 2], rfl,
    by simp [Ends], by decide +kernel, by decide +kernel⟩

/-- A case of `C70_early_viewer`. -/
example : ∃ (pre mid : List (WsEvent ℕ)), (pre ++ .connect 2 :: mid) ++ [.leave 2] = demoEvents ∧
    (∀ e ∈ mid, ¬ Ends demoLabel 2 e) ∧ labelled demoLabel "init" pre = [] ∧ labelled demoLabel "init" mid = [0] :=
  ⟨[.connect 1], [.message 1 0, .message 1 1, .connect 3, .connect 4, .message 4 7, .message 1 2], rfl,
    by simp [Ends], by decide +kernel, by decide +kernel⟩

/-- A case of `C70_left`: viewer 4, after its message. -/
example : ¬ Connected demoLabel demoEvents 4 ∧ .connect 4 ∈ demoEvents := by
  refine ⟨?_, by simp [demoEvents]⟩
  simp only [demoEvents, connected_snoc, Ends, demoLabel]
  simp

end Anm
