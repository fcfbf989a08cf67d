import Verif.EventGzip.Model
import Verif.Gzip.Spec
import Verif.Sse.Spec

/-!
# What a page gets to see of an event stream while it is being sent
-/

namespace Verif.EventGzip.Spec

open Verif Verif.MultiDict Verif.Gzip Verif.Gzip.Spec

/-- The bytes of the body that have been sent. -/
def bytesOf : List Msg → Bytes
  | [] => []
  | .body d _ :: ms => d ++ bytesOf ms
  | _ :: ms => bytesOf ms

/-- The headers that have been sent. -/
def headersOf : List Msg → Items Str
  | [] => []
  | .start h :: _ => h
  | _ :: ms => headersOf ms

/-- The events that a page has been given when these messages have been sent: the client decompresses what it has, if
the headers say so, decodes it and reads the event stream. -/
def seen (c : Codec) (t : Charset) (ms : List Msg) : List Sse.Spec.Event :=
  if valuesOf (headersOf ms) "content-encoding".toList = ["gzip".toList] then
    (Sse.Spec.read (t.dec ((c.inflate (bytesOf ms)).getD []))).out
  else (Sse.Spec.read (t.dec (bytesOf ms))).out

/-- What an open compressor has written so far when these pieces have been written to it. -/
def emitted (c : Codec) (s : c.S) : List Bytes → Bytes
  | [] => []
  | d :: ds => (c.write s d).2 ++ emitted c (c.write s d).1 ds

/-- What the client has decompressed when these pieces have been written. -/
def expanded (c : Codec) (ds : List Bytes) : Bytes := (c.inflate (c.init.2 ++ emitted c c.init.1 ds)).getD []

/-- The client can decompress while it reads: it gets a beginning of what was written, and all in the end. -/
def Streaming (c : Codec) : Prop := Faithful c ∧ ∀ ds : List Bytes, expanded c ds <+: ds.flatten

/-- The compressor writes out everything at once. -/
def Flushing (c : Codec) : Prop := ∀ ds : List Bytes, expanded c ds = ds.flatten

/-- The compressor collects up to `n` bytes before it writes anything after its header, as zlib does without a
flush. -/
def Collects (c : Codec) (n : Nat) : Prop :=
  ∀ ds : List Bytes, ds.flatten.length ≤ n → emitted c c.init.1 ds = [] ∧ expanded c ds = []

/-- Encoding and decoding: a text that has been encoded is decoded, texts are encoded one after the other, and more
bytes only add to what has been decoded. -/
def Lawful (t : Charset) : Prop :=
  (∀ s, t.dec (t.enc s) = s) ∧ (∀ a b, t.enc (a ++ b) = t.enc a ++ t.enc b) ∧ t.enc [] = [] ∧
    ∀ a b, t.dec a <+: t.dec (a ++ b)

/-- The events can be written: fields without line breaks, times that are not negative, an allowed separator. -/
def Writable (r : Stream) (es : List Sse.EventDict) : Prop :=
  Sse.Spec.Sep r.sep ∧ (∀ e ∈ es, Sse.Spec.EFields e) ∧
    ∀ e ∈ es, ∀ n, Sse.retryValue r.retry e = some n → 0 ≤ n

end Verif.EventGzip.Spec
