import Verif.FileFlow.Model
import Verif.FileResponse.Spec
import Verif.Ranges.Spec
import Verif.StaticFiles.Spec

/-!
# Specification for C143

Two clients.  The first keeps a copy of the file and asks, at every visit, whether it is still good.
The second downloads the file, is interrupted, and asks for the rest.
-/

namespace Verif.FileFlow.Spec

open Verif Verif.Path Verif.FileResponse Verif.FileResponse.Spec Verif.FileFlow

/-- What arrives of a file response: the status, the part of the file it claims to be, the bytes.
Nothing of this when the range cannot be satisfied. -/
structure Arrived where
  status : Nat
  range : Option Ranges.Rng
  body : Str

/-- Reading the messages of a response. -/
def arrived (file : Str) : Outcome → Option Arrived
  | .sent (.start status _ range _ :: ms) _ => some ⟨status, range, bytes file ms⟩
  | _ => none

/-! ## The client with a copy -/

/-- A copy and the two headers it came with. -/
structure Copy where
  tag : Str
  date : Str
  body : Str
  deriving DecidableEq

/-- How the client asks: with the tag, with the date, or with both as browsers do. -/
inductive Style where
  | tag
  | date
  | both
  deriving DecidableEq

/-- The request of a client: without a copy, a plain one. -/
def ask (s : Style) : Option Copy → Request
  | none => ⟨none, none, [], []⟩
  | some c => ⟨if s = .date then none else some c.tag, if s = .tag then none else some c.date, [], []⟩

/-- One visit (RFC 9111, 4.3.3 and 4.3.4): 304 keeps the copy and renews the headers that came with
it; 200 replaces it. -/
def visit (t : Tools) (old : Option Copy) (x : Style × Version) : Option Copy :=
  match answer t x.2 (ask x.1 old) with
  | .notModified tag => old.map fun c => { c with tag := tag }
  | .file tag date o =>
    match arrived x.2.content o with
    | some a => if a.status = 200 then some ⟨tag, date, a.body⟩ else old
    | none => old

/-- Several visits; each names the version that the file has at that time. -/
def visits (t : Tools) (old : Option Copy) (xs : List (Style × Version)) : Option Copy :=
  xs.foldl (visit t) old

/-! ## The client that is interrupted -/

/-- What has been received so far, and the two headers it came with. -/
structure Part where
  tag : Str
  date : Str
  got : Str
  deriving DecidableEq

/-- The request for the rest: `Range: bytes=k-` with the tag or the date in `If-Range`. -/
def more (byDate : Bool) : Option Part → Request
  | none => ⟨none, none, [], []⟩
  | some p => ⟨none, none, Ranges.Spec.header [.tail p.got.length], if byDate then p.date else p.tag⟩

/-- One attempt that is cut off after `n` bytes of the body: a partial answer is put where it says it
belongs, a whole one replaces what was there, and without either everything stays. -/
def attempt (t : Tools) (byDate : Bool) (p : Option Part) (x : Version × Nat) : Option Part :=
  match answer t x.1 (more byDate p) with
  | .notModified _ => p
  | .file tag date o =>
    match arrived x.1.content o with
    | none => p
    | some a =>
      match a.range with
      | none => some ⟨tag, date, a.body.take x.2⟩
      | some r => p.map fun q => { q with got := q.got.take r.start.toNat ++ a.body.take x.2 }

/-- Several attempts; each names the version that the file has at that time and the number of bytes
after which it is cut off. -/
def attempts (t : Tools) (byDate : Bool) (p : Option Part) (xs : List (Version × Nat)) : Option Part :=
  xs.foldl (attempt t byDate) p

/-! ## Assumptions -/

/-- Versions with the same tag have the same bytes. -/
def Faithful (t : Tools) (vs : List Version) : Prop :=
  ∀ v ∈ vs, ∀ w ∈ vs, etag t v = etag t w → v.content = w.content

/-- A digest is not empty and is written without blanks, commas, slashes and `W`. -/
def Hex (t : Tools) : Prop :=
  ∀ s, t.md5 s ≠ [] ∧ ∀ c ∈ t.md5 s, c ≠ ' ' ∧ c ≠ 'W' ∧ c ≠ '/' ∧ c ≠ ','

/-- Written dates are read back as dates, in the order of the seconds. -/
def Dated (t : Tools) : Prop :=
  ∃ date : Nat → StaticFiles.Spec.Date,
    (∀ s, t.parsedate (t.formatdate s) = some (date s).tuple ∧ (date s).Valid) ∧
    ∀ s s', (date s).position ≤ (date s').position ↔ s ≤ s'

/-- Each version has a later second than the one before it, or the same second and the same bytes. -/
def InOrder : List Version → Prop
  | v :: w :: rest => (v.second < w.second ∨ v.second = w.second ∧ v.content = w.content) ∧
      InOrder (w :: rest)
  | _ => True

/-- Sizes that Python can read as numbers. -/
def Short (v : Version) : Prop := ∀ k, k ≤ v.content.length → (natToDec k).length ≤ 4300

end Verif.FileFlow.Spec
