import Verif.Spec.Clients
/-!
# Specification of any number of clients and of their conversations

`K` are the clients and `C` the conversations, each between two clients, that go on at the same time: every client has
one store, one list of contacts and one list of devices for all of its conversations. What the applications should see
is given for each conversation by itself (`Sight`, as in `Spec/Clients`).
-/
namespace Verif.Clients
open Verif Verif.Keys Verif.Session Verif.Api Verif.Conv

/-- The account of each client; between which clients each conversation is, who begins it, and with which keys. -/
structure Plan (K C : Type) where
  name : K → String
  ini : C → K
  res : C → K
  S : C → Setup

/-- The clients, and for each conversation what the server has accepted. -/
structure Net (K C : Type) where
  cl : K → Client
  wire : C → List (Bool × Send.JMsg)

section
variable {K C : Type} [DecidableEq K] [DecidableEq C]

/-- The responder (`true`) or the initiator (`false`). -/
def Plan.side (T : Plan K C) (c : C) (responder : Bool) : K := if responder then T.res c else T.ini c

/-- The two clients of a conversation, as they are at the moment. -/
def Net.pair (T : Plan K C) (n : Net K C) (c : C) : Pair :=
  ⟨n.cl (T.ini c), n.cl (T.res c), n.wire c, (T.S c).devI, (T.S c).devR⟩

/-- `k` is now as `x`. -/
def Net.put (n : Net K C) (k : K) (x : Client) : Net K C := { n with cl := fun k' => if k' = k then x else n.cl k' }

/-- An event: of a conversation, or something that a client does with others (as in `FEv`). -/
inductive NEv (K C : Type) where
  | talk (c : C) (ev : CEv)
  | does (k : K) (a : Act)

/-- One event: those of a conversation concern its two clients. -/
def Net.step (P : Prims) (T : Plan K C) (n : Net K C) : NEv K C → Net K C × COut
  | .talk c ev =>
    let r := (n.pair T c).step P ev
    let n' := (n.put (T.ini c) r.1.I).put (T.res c) r.1.R
    ({ n' with wire := fun c' => if c' = c then r.1.wire else n.wire c' }, r.2)
  | .does k a => (n.put k (a.run P (n.cl k)), .nothing)

def Net.outs (P : Prims) (T : Plan K C) : Net K C → List (NEv K C) → List COut
  | _, [] => []
  | n, ev :: evs => (n.step P T ev).2 :: Net.outs P T (n.step P T ev).1 evs

/-- What is expected: each conversation by itself. -/
def NEv.sight (v : C → Sight) : NEv K C → C → Sight
  | .talk c ev => fun c' => if c' = c then (v c).step ev else v c'
  | .does _ _ => v

def NEv.want (T : Plan K C) (v : C → Sight) : NEv K C → CWant
  | .talk c ev => (v c).want (T.S c) ev
  | .does _ _ => .nothing

def NEv.wants (T : Plan K C) : (C → Sight) → List (NEv K C) → List CWant
  | _, [] => []
  | v, ev :: evs => ev.want T v :: NEv.wants T (ev.sight v) evs

/-- The events of one conversation. -/
def NEv.of (c : C) (evs : List (NEv K C)) : List CEv :=
  evs.flatMap (fun ev => match ev with
    | .talk c' ev => if c' = c then [ev] else []
    | .does _ _ => [])

/-- Every client is of an account of its own; a conversation is between two clients, and there is one between the same
two; no one-time prekey is given to two initiators, except the one that is never used up. -/
structure Plan.Ok (T : Plan K C) : Prop where
  own : ∀ k k', T.name k = T.name k' → k = k'
  plain : ∀ k, T.name k ≠ "" ∧ (T.name k).toList.head? ≠ some '+'
  nameI : ∀ c, (T.S c).nameI = T.name (T.ini c)
  nameR : ∀ c, (T.S c).nameR = T.name (T.res c)
  two : ∀ c, T.ini c ≠ T.res c
  once : ∀ c c' w w', T.side c w = T.side c' w' → T.side c (!w) = T.side c' (!w') → c = c'
  keys : ∀ c c', c ≠ c' → T.res c = T.res c' → (T.S c).opk ≠ none →
    (T.S c').pkId ≠ (T.S c).pkId ∨ (T.S c).pkId = 0xFFFFFF

/-- An event considered: one of `Spec/Clients` in its conversation, where transcripts go to the account of the sender;
or something that does not concern the conversations of the client. -/
def NEv.Real (P : Prims) (T : Plan K C) (v : C → Sight) (n : Net K C) : NEv K C → Prop
  | .talk c ev => ev.Real P (T.S c) (v c) (n.pair T c) ∧ ev.NoForgery P (T.S c) (v c) (n.pair T c) ∧
    match ev with
    | .send who X _ => X.self = T.name (T.side c who)
    | .deliver _ _ _ _ _ _ => True
    | .other _ _ => False
  | .does k a => ∀ c who, T.side c who = k →
    a.Apart P (senderName (T.S c) (!who)) (senderDev (T.S c) (!who)) (senderKey (T.S c) (!who))
      (if who then (T.S c).opk.map (fun _ => (T.S c).pkId) else none) (n.cl k)

def NEv.AllReal (P : Prims) (T : Plan K C) : (C → Sight) → Net K C → List (NEv K C) → Prop
  | _, _, [] => True
  | v, n, ev :: evs => ev.Real P T v n ∧ NEv.AllReal P T (ev.sight v) (n.step P T ev).1 evs

end
end Verif.Clients
