import Verif.Stack.Model
import Verif.Gzip.Spec

/-!
# Well-formed answers
-/

namespace Verif.Stack.Spec

open Verif Verif.MultiDict
open Verif.Gzip (Bytes Codec)

/-- How far an answer has come. -/
inductive Phase where
  | idle | opened | closed
deriving DecidableEq

/-- A start comes first, then bodies up to one that is the last. -/
inductive Follows : Phase → Msg → Phase → Prop where
  | start (st : Nat) (h : Items Str) : Follows .idle (.start st h) .opened
  | more (d : Bytes) : Follows .opened (.body d true) .opened
  | last (d : Bytes) : Follows .opened (.body d false) .closed

variable {E : Type}

/-- An application that does as it should: it sends one answer, returns only when the answer is complete, and raises
when
a start or a body cannot be sent.  Other messages may come at any time. -/
inductive Proper : Phase → Prog E → Prop where
  | ret : Proper .closed .ret
  | raise (ph : Phase) (e : E) : Proper ph (.raise e)
  | send (ph ph' : Phase) (m : Msg) (next : Prog E) (fail : E → Prog E) (h : Follows ph m ph') (hn : Proper ph' next)
      (hf : ∀ e, ∃ x, fail e = .raise x) : Proper ph (.send m next fail)
  | other (ph : Phase) (next : Prog E) (fail : E → Prog E) (hn : Proper ph next) (hf : ∀ e, Proper ph (fail e)) :
      Proper ph (.send .other next fail)

/-- What the client sees of the messages. -/
def parts (ms : List Msg) : List Msg := ms.filter (· ≠ .other)

/-- A whole answer. -/
def Whole (ms : List Msg) (st : Nat) (h : Items Str) (ds : List Bytes) (last : Bytes) : Prop :=
  parts ms = .start st h :: (ds.map fun d => .body d true) ++ [.body last false]

/-- Exactly one answer, with its end. -/
def Complete (ms : List Msg) : Prop := ∃ st h ds last, Whole ms st h ds last

/-- One answer without its end. -/
def Begun (ms : List Msg) : Prop := ∃ (st : Nat) (h : Items Str) (ds : List Bytes),
  parts ms = .start st h :: ds.map fun d => .body d true

/-- What a client that knows gzip reads: the status and the body. -/
def Reads (inflate : Bytes → Option Bytes) (ms : List Msg) (st : Nat) (data : Bytes) : Prop :=
  ∃ (h : Items Str) (ds : List Bytes) (last : Bytes), Whole ms st h ds last ∧
    ((Gzip.Spec.valuesOf h "content-encoding".toList = [] ∧ data = ds.flatten ++ last) ∨
     (Gzip.Spec.valuesOf h "content-encoding".toList = ["gzip".toList] ∧
        inflate (ds.flatten ++ last) = some data))

/-- The answers that a middleware gives by itself are as they should be. -/
def Good : Layer E → Prop
  | .headers _ => True
  | .gzip _ _ _ => True
  | .own p => Proper .idle p
  | .exceptions handler => ∀ e p, handler e = some p → Proper .idle p
  | .intercept _ handler => ∀ e, Proper .idle (handler e)
  | .errors _ handler => ∀ e p, handler e = .ok p → Proper .idle p

/-- A middleware that only adds headers, does not raise and leaves the encoding alone, or compresses what `inflate`
reads. -/
def Plain (inflate : Bytes → Option Bytes) : Layer E → Prop
  | .headers f => ∀ h, ∃ h', f h = .ok h' ∧
      Gzip.Spec.valuesOf h' "content-encoding".toList = Gzip.Spec.valuesOf h "content-encoding".toList
  | .gzip c _ _ => Gzip.Spec.Faithful c ∧ c.inflate = inflate
  | _ => False

/-- The start with other headers, and everything else as it is. -/
def reheaded (f : Items Str → Items Str) : Msg → Msg
  | .start st h => .start st (f h)
  | m => m

end Verif.Stack.Spec
