import Verif.Model.Server

/-! # Specification vocabulary for the rendering server -/

namespace Anm.Spec

variable {M : Type}

/-- The event ends the connection of client `c`: it leaves, or its message is not a JSON object with a
label, which makes its handler fail. -/
def Ends (label : M → Except PyErr String) (c : ℕ) : WsEvent M → Prop
  | .leave c' => c' = c
  | .message c' m => c' = c ∧ ∃ e, label m = .error e
  | _ => False

/-- Client `c` is connected after the events. -/
def Connected (label : M → Except PyErr String) (es : List (WsEvent M)) (c : ℕ) : Prop :=
  ∃ pre post, es = pre ++ .connect c :: post ∧ ∀ e ∈ post, ¬ Ends label c e

/-- A possible sequence of events: new clients get new IDs, and only connected clients send messages or
leave. -/
def Plausible (label : M → Except PyErr String) (es : List (WsEvent M)) : Prop :=
  ∀ pre e post, es = pre ++ e :: post → match e with
    | .connect c => .connect c ∉ pre
    | .message c _ => Connected label pre c
    | .leave c => Connected label pre c
    | .fail => True

/-- The messages with a given label, in order. -/
def labelled (label : M → Except PyErr String) (l : String) (es : List (WsEvent M)) : List M :=
  es.filterMap fun
    | .message _ m => if label m = .ok l then some m else none
    | _ => none

/-- What was sent to client `c`, in order. -/
def sentTo (c : ℕ) (out : List (ℕ × M)) : List M := (out.filter fun x => x.1 = c).map Prod.snd

end Anm.Spec
