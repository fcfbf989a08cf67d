import Verif.Gzip.Model

/-!
# Specification for C14
-/

namespace Verif.Gzip.Spec

open Verif Verif.MultiDict

/-- All bytes that come out of a compressor when pieces are written one after the other and the
file is closed. -/
def written (c : Codec) (s : c.S) : List Bytes → Bytes
  | [] => c.close s
  | d :: ds => (c.write s d).2 ++ written c (c.write s d).1 ds

/-- The compressor is a compressor: whatever pieces are written, what comes out decompresses to
them. -/
def Faithful (c : Codec) : Prop :=
  ∀ ds : List Bytes, c.inflate (c.init.2 ++ written c c.init.1 ds) = some ds.flatten

/-- The messages of a complete response: a start, then the pieces of the body, only the last of them
marked as last. -/
def response (h : Items Str) (ds : List Bytes) (last : Bytes) : List Msg :=
  .start h :: (ds.map fun d => .body d true) ++ [.body last false]

/-- The values of a header, in whatever case its name is written. -/
def valuesOf (h : Items Str) (name : Str) : List Str :=
  (h.filter fun kv => lower kv.1 = lower name).map (·.2)

/-- The number a header value states, when it is one. -/
def Length (h : Items Str) (n : Nat) : Prop :=
  ∀ v ∈ valuesOf h "content-length".toList, v = (toString n).toList

end Verif.Gzip.Spec
