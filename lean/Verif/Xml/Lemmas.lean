import Verif.Xml.Spec

namespace Verif.Xml

open Spec

theorem before_append (a b : List Token) (o : Option (List Token)) :
    before a (before b o) = before (a ++ b) o := by
  cases o <;> simp [before]

theorem before_nil (o : Option (List Token)) : before [] o = o := by cases o <;> rfl

/-! ### Names contain nothing that ends a tag -/

theorem nameChar_ne {c : Char} (h : nameChar c = true) : c ≠ '>' ∧ c ≠ '/' := by
  constructor <;> (rintro rfl; revert h; decide)

theorem nameStart_nameChar {c : Char} (h : nameStart c = true) : nameChar c = true := by
  rw [nameChar, h]; rfl

theorem isName_chars {n : Str} (h : isName n = true) : ∀ c ∈ n, nameChar c = true := by
  cases n with
  | nil => intro c hc; cases hc
  | cons x xs =>
    rw [isName, Bool.and_eq_true] at h
    intro c hc
    rcases List.mem_cons.1 hc with rfl | hc
    · exact nameStart_nameChar h.1
    · exact List.all_eq_true.1 h.2 c hc

theorem tagToken_open {n : Str} (h : isName n = true) : tagToken n = some (.opening n) := by
  cases n with
  | nil => cases h
  | cons x xs =>
    have hx := (nameChar_ne (isName_chars h x (List.mem_cons_self ..))).2
    unfold tagToken
    split
    · rename_i e
      injection e with e1 _
      exact absurd e1 hx
    · rw [if_pos h]

theorem tagToken_close {n : Str} (h : isName n = true) : tagToken ('/' :: n) = some (.closing n) := by
  simp only [tagToken, if_pos h]

/-! ### Tokens -/

theorem tokens_tag (n : Str) (h : ∀ c ∈ n, c ≠ '>') (acc rest : Str) :
    tokens (.tag acc) (n ++ '>' :: rest) =
      match tagToken (acc.reverse ++ n) with
      | none => none
      | some t => before [t] (tokens (.data []) rest) := by
  induction n generalizing acc with
  | nil =>
    rw [List.nil_append, tokens, if_pos rfl, List.append_nil]
    cases tagToken acc.reverse <;> rfl
  | cons c cs ih =>
    rw [List.cons_append, tokens, if_neg (h c (List.mem_cons_self ..)),
      ih (fun x hx => h x (List.mem_cons_of_mem _ hx))]
    simp only [List.reverse_cons, List.append_assoc, List.singleton_append]

theorem tokens_openTag {n : Str} (h : isName n = true) (acc rest : Str) :
    tokens (.data acc) (openTag n ++ rest) =
      before (dataToken acc ++ [.opening n]) (tokens (.data []) rest) := by
  have e : openTag n ++ rest = '<' :: (n ++ '>' :: rest) := by simp [openTag]
  rw [e, tokens, if_pos rfl, tokens_tag n (fun c hc => (nameChar_ne (isName_chars h c hc)).1)]
  simp only [List.reverse_nil, List.nil_append, tagToken_open h]
  exact before_append _ _ _

theorem tokens_closeTag {n : Str} (h : isName n = true) (acc rest : Str) :
    tokens (.data acc) (closeTag n ++ rest) =
      before (dataToken acc ++ [.closing n]) (tokens (.data []) rest) := by
  have e : closeTag n ++ rest = '<' :: (('/' :: n) ++ '>' :: rest) := by simp [closeTag]
  have hc : ∀ c ∈ ('/' :: n), c ≠ '>' := by
    intro c hc
    rcases List.mem_cons.1 hc with rfl | hc
    · decide
    · exact (nameChar_ne (isName_chars h c hc)).1
  rw [e, tokens, if_pos rfl, tokens_tag ('/' :: n) hc]
  simp only [List.reverse_nil, List.nil_append, tagToken_close h]
  exact before_append _ _ _

theorem tokens_clean (s : Str) (h : Clean s) (acc rest : Str) :
    tokens (.data acc) (s ++ rest) = tokens (.data (s.reverse ++ acc)) rest := by
  induction s generalizing acc with
  | nil => rfl
  | cons c cs ih =>
    obtain ⟨h1, h2, h3⟩ := h c (List.mem_cons_self ..)
    have h4 : c ≠ '\r' := by rintro rfl; revert h1; decide
    rw [List.cons_append, tokens, if_neg h2, if_neg h3, if_neg h4, if_pos h1,
      ih (fun x hx => h x (List.mem_cons_of_mem _ hx))]
    simp

mutual
/-- The tokens of a value. -/
def valTokens (tag : Str) : Val → List Token
  | .text s => .opening tag :: (dataToken s.reverse ++ [.closing tag])
  | .dict es => .opening tag :: (entryTokens es ++ [.closing tag])
  | .list vs => itemTokens tag vs
/-- The tokens of entries. -/
def entryTokens : List (Str × Val) → List Token
  | [] => []
  | (k, v) :: rest => valTokens k v ++ entryTokens rest
/-- The tokens of items. -/
def itemTokens (tag : Str) : List Val → List Token
  | [] => []
  | v :: rest => valTokens tag v ++ itemTokens tag rest
end

mutual
theorem tokens_val (tag : Str) (ht : isName tag = true) (rest : Str) : ∀ (v : Val), Good v →
    tokens (.data []) (toXml tag v ++ rest) = before (valTokens tag v) (tokens (.data []) rest)
  | .text s, hg => by
    rw [Good] at hg
    rw [toXml, List.append_assoc, List.append_assoc, tokens_openTag ht, tokens_clean s hg,
      tokens_closeTag ht, before_append, valTokens]
    simp [dataToken]
  | .dict es, hg => by
    rw [Good] at hg
    rw [toXml, List.append_assoc, List.append_assoc, tokens_openTag ht,
      tokens_entries (closeTag tag ++ rest) es hg, tokens_closeTag ht, before_append, before_append,
      valTokens]
    simp [dataToken]
  | .list vs, hg => by
    rw [Good] at hg
    rw [toXml, valTokens]
    exact tokens_items tag ht rest vs hg
theorem tokens_entries (rest : Str) : ∀ (es : List (Str × Val)), GoodEntries es →
    tokens (.data []) (entriesXml es ++ rest) = before (entryTokens es) (tokens (.data []) rest)
  | [], _ => by rw [entriesXml, List.nil_append, entryTokens, before_nil]
  | (k, v) :: es, hg => by
    rw [GoodEntries] at hg
    rw [entriesXml, List.append_assoc, tokens_val k hg.1 (entriesXml es ++ rest) v hg.2.1,
      tokens_entries rest es hg.2.2, before_append, entryTokens]
theorem tokens_items (tag : Str) (ht : isName tag = true) (rest : Str) : ∀ (vs : List Val),
    GoodItems vs →
    tokens (.data []) (itemsXml tag vs ++ rest) = before (itemTokens tag vs) (tokens (.data []) rest)
  | [], _ => by rw [itemsXml, List.nil_append, itemTokens, before_nil]
  | v :: vs, hg => by
    rw [GoodItems] at hg
    rw [itemsXml, List.append_assoc, tokens_val tag ht (itemsXml tag vs ++ rest) v hg.1,
      tokens_items tag ht rest vs hg.2, before_append, itemTokens]
end

/-! ### Building -/

theorem build_data (s : Str) (ts : List Token) (n : Str) (cs : List Node)
    (st : List (Str × List Node)) :
    build (dataToken s.reverse ++ ts) ((n, cs) :: st) =
      build ts ((n, (if s = [] then [] else [Node.text s]) ++ cs) :: st) := by
  by_cases h : s = []
  · subst h; rfl
  · have h' : s.reverse ≠ [] := by rwa [Ne, List.reverse_eq_nil_iff]
    rw [dataToken, if_neg h', if_neg h, List.reverse_reverse]; rfl

theorem build_close (tag : Str) (ts : List Token) (cs : List Node) (n : Str) (ps : List Node)
    (st : List (Str × List Node)) :
    build (.closing tag :: ts) ((tag, cs) :: (n, ps) :: st) =
      build ts ((n, .elem tag cs.reverse :: ps) :: st) := by
  simp only [build, if_true]

theorem build_end (tag : Str) (cs : List Node) :
    build [.closing tag] [(tag, cs)] = some (.elem tag cs.reverse) := by
  simp only [build, if_true]

theorem build_open (tag : Str) (ts : List Token) (st : List (Str × List Node)) :
    build (.opening tag :: ts) st = build ts ((tag, []) :: st) := by
  rw [build]

mutual
theorem build_val (tag : Str) (n : Str) (st : List (Str × List Node)) : ∀ (v : Val)
    (ts : List Token) (cs : List Node),
    build (valTokens tag v ++ ts) ((n, cs) :: st) =
      build ts ((n, (nodes tag v).reverse ++ cs) :: st)
  | .text s, ts, cs => by
    rw [valTokens, nodes, List.cons_append, build_open, List.append_assoc, build_data,
      List.singleton_append, build_close]
    by_cases h : s = [] <;> simp [h]
  | .dict es, ts, cs => by
    rw [valTokens, nodes, List.cons_append, build_open, List.append_assoc,
      build_entries tag ((n, cs) :: st) es, List.singleton_append, build_close]
    simp
  | .list vs, ts, cs => by
    rw [valTokens, nodes]
    exact build_items tag n st vs ts cs
theorem build_entries (n : Str) (st : List (Str × List Node)) : ∀ (es : List (Str × Val))
    (ts : List Token) (cs : List Node),
    build (entryTokens es ++ ts) ((n, cs) :: st) =
      build ts ((n, (entryNodes es).reverse ++ cs) :: st)
  | [], ts, cs => by rw [entryTokens, entryNodes]; rfl
  | (k, v) :: es, ts, cs => by
    rw [entryTokens, entryNodes, List.append_assoc, build_val k n st v, build_entries n st es,
      List.reverse_append, List.append_assoc]
theorem build_items (tag n : Str) (st : List (Str × List Node)) : ∀ (vs : List Val)
    (ts : List Token) (cs : List Node),
    build (itemTokens tag vs ++ ts) ((n, cs) :: st) =
      build ts ((n, (itemNodes tag vs).reverse ++ cs) :: st)
  | [], ts, cs => by rw [itemTokens, itemNodes]; rfl
  | v :: vs, ts, cs => by
    rw [itemTokens, itemNodes, List.append_assoc, build_val tag n st v, build_items tag n st vs,
      List.reverse_append, List.append_assoc]
end

theorem root_name : isName root = true := by decide +kernel

theorem read_of_tokens {s : Str} {ts : List Token} (h : tokens (.data []) s = some ts) :
    Spec.read s = build ts [] := by
  simp only [Spec.read, h]

end Verif.Xml
