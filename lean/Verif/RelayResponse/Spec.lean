import Verif.RelayResponse.Model
import Verif.RelayHeaders.Spec

/-!
# What a client expects of a response that a proxy passed on
-/

namespace Verif.RelayResponse.Spec

open Verif Verif.RelayResponse

/-- The values of the fields with a name, in order; letter case does not matter. -/
def values (hs : Fields) (name : Str) : List Str :=
  (hs.filter fun kv => lower kv.1 = lower name).map Prod.snd

/-- A field that the proxy is to pass on: it does not concern one connection only, and the administrator did not
list it. -/
def Kept (cfg : RelayHeaders.Config) (k : Str) : Prop :=
  ¬ RelayHeaders.Spec.OneHop k ∧ ¬ RelayHeaders.Spec.Listed k cfg.dropResponse

/-- Bytes with a meaning on their own: ASCII. -/
def Ascii (s : Str) : Prop := ∀ c ∈ s, c.toNat < 128

/-- Bytes. -/
def Bytes (s : Str) : Prop := ∀ c ∈ s, c.toNat < 256

/-- The names and values of a header are ASCII. -/
def AsciiFields (hs : Fields) : Prop := ∀ kv ∈ hs, Ascii kv.1 ∧ Ascii kv.2

/-- Some value is not the encoding of a text in UTF-8. -/
def NotUtf8 (hs : Fields) : Prop := ∃ kv ∈ hs, ∀ t, ExtValue.utf8 t ≠ kv.2

/-- What is read from a response with at most one content coding: the body, or the body decoded. -/
inductive Reads (dec : Decoders) (hs : Fields) (body : Str) : Str → Prop where
  | plain : values hs "Content-Encoding".toList = [] → Reads dec hs body body
  | coded (g x : Str) (d : Str → Option Str) : values hs "Content-Encoding".toList = [g] → dec g = some d →
      d body = some x → Reads dec hs body x

end Verif.RelayResponse.Spec
