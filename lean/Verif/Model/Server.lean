import Verif.Num

/-! # Model of `gym_anm/envs/anm6_env/rendering/py/servers.py` (`WsServer`)

The callbacks of the WebSocket server and what the library `websocket_server` does around them: it keeps a
list of the connected clients, calls one callback for each event, and removes a client whose connection is
closed or whose handler raised an exception.  Callbacks are taken to run one after the other, and sending is
taken to succeed. -/

namespace Anm

/-- The attributes of a `WsServer` (`servers.py:46-48`; of the table of clients only the keys), and the list
of clients of the library. -/
structure Ws (M : Type) where
  clients : List ℕ := []
  initMessage : Option M := none
  initClient : Option ℕ := none
  peers : List ℕ := []

/-- What happens on the connections. -/
inductive WsEvent (M : Type) where
  | connect (c : ℕ)
  | message (c : ℕ) (m : M)
  | leave (c : ℕ)
  /-- A connection is closed before its handshake was completed. -/
  | fail

namespace Ws
variable {M : Type}

/-- `new_client` (`servers.py:83-100`): the new attributes and the messages sent. -/
def newClient (w : Ws M) (c : ℕ) : Ws M × List (ℕ × M) :=
  let w' := { w with clients := if c ∈ w.clients then w.clients else w.clients ++ [c] }
  (w', match w.initMessage, w.initClient with
    | some m, some c0 => if c ≠ c0 then [(c, m)] else []
    | _, _ => [])

/-- `client_left` (`servers.py:125-141`); `none` if the client is unknown to the library.  A missing key is
caught. -/
def clientLeft (w : Ws M) : Option ℕ → Ws M
  | none => w
  | some c => { w with clients := w.clients.erase c }

/-- `msg_received` (`servers.py:102-123`).  `label` is the result of `json.loads(msg)["messageLabel"]`. -/
def msgReceived (label : M → Except PyErr String) (w : Ws M) (c : ℕ) (m : M) : Except PyErr (Ws M × List (ℕ × M)) := do
  let l ← label m
  if l = "init" then pure ({ w with initClient := some c, initMessage := some m }, [])
  else if l = "update" then pure (w, w.peers.map (·, m))
  else pure (w, [])

/-- One event: the list of the library, and the callback. -/
def handle (label : M → Except PyErr String) (w : Ws M) : WsEvent M → Ws M × List (ℕ × M)
  | .connect c => newClient { w with peers := w.peers ++ [c] } c
  | .message c m =>
    match w.msgReceived label c m with
    | .ok r => r
    | .error _ => let w := w.clientLeft (some c); ({ w with peers := w.peers.erase c }, [])
  | .leave c => let w := w.clientLeft (some c); ({ w with peers := w.peers.erase c }, [])
  | .fail => (w.clientLeft none, [])

/-- A sequence of events from the start of the server: the final attributes and all messages sent, with
their receivers. -/
def run (label : M → Except PyErr String) : Ws M → List (WsEvent M) → Ws M × List (ℕ × M)
  | w, [] => (w, [])
  | w, e :: es =>
    let (w1, o1) := w.handle label e
    let (w2, o2) := w1.run label es
    (w2, o1 ++ o2)

end Ws

end Anm
