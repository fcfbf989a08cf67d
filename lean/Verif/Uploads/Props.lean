import Verif.Uploads.Lemmas

/-!
# C141: Uploaded files hold what was sent and are closed
-/

namespace Verif.Uploads.Props

open Verif Verif.Uploads Verif.Uploads.Spec

/-! ## The form -/

/-- Two texts and two files, in pieces. -/
def sample : List Sent :=
  [.text "a".toList ["x".toList, "y".toList], .file "f".toList "one.txt".toList ["he".toList, "llo".toList],
   .file "f".toList "none".toList [], .text "b".toList []]

/-- However the parts of a form are divided into chunks, and whatever bytes are left over: parsing succeeds, the
items are the texts and the files in the order in which they were sent, and every file has its name, exactly its
bytes, its size, and stands at its start. -/
theorem C141_parsed_partial (max : Nat) (parts : List Sent) (chunks : List (List Ev))
    (h : chunks.flatten = (parts.map Sent.events).flatten) (rest : Str) :
    ∃ f, parse max (chunks.map some) rest = (f, true) ∧ f.items = items 0 parts ∧
      f.files.length = (uploads parts).length ∧
      ∀ (i : Nat) (u : Upload) (w : Str × Str), f.files[i]? = some u → (uploads parts)[i]? = some w →
        Holds u w.1 w.2 := by
  obtain ⟨g', h1, h2, h3, h4⟩ := steps_sent parts ⟨[], [], [], [], none, false⟩ rfl
  obtain ⟨f, k1, k2, k3, k4⟩ := rel_chunks chunks (.new max) _ g' (rel_new max) rfl rfl (h ▸ h1)
  have hw : g'.want = uploads parts := by simpa using h3
  have hi : g'.items = items 0 parts := by simpa using h4
  have key : f.items = items 0 parts ∧ f.files.length = (uploads parts).length ∧
      ∀ (i : Nat) (u : Upload) (w : Str × Str), f.files[i]? = some u → (uploads parts)[i]? = some w →
        Holds u w.1 w.2 := by
    refine ⟨k2.items.trans hi, hw ▸ k2.length, ?_⟩
    intro i u w hu hww
    have gd := k2.good i u w hu (hw ▸ hww)
    have hnb : ¬ g'.Busy i := fun hb => by simp [Ghost.Busy, h2] at hb
    obtain ⟨p0, _⟩ := gd.idle hnb (by rw [k4]; simp)
    have hb := gd.bytes
    rw [k3] at hb
    simp only [pieces, List.flatten_nil, List.append_nil] at hb
    exact ⟨gd.name, hb, p0, gd.isOpen, by rw [← hb]; exact gd.size⟩
  unfold parse
  rw [k1]
  simp only
  split
  · exact ⟨f, rfl, key⟩
  · cases hc : f.cur with
    | none =>
      refine ⟨{ f with text := f.text ++ rest }, ?_, key⟩
      simp [Form.on, hc]
    | some i =>
      refine ⟨{ f with toWrite := f.toWrite ++ [(i, rest)] }, ?_, key⟩
      simp [Form.on, hc]

example : ∃ f, parse 3 ([[.start, .field "a".toList, .data "x".toList], [.data "y".toList, .stop, .start,
      .file "f".toList "one.txt".toList, .data "he".toList], [.data "llo".toList, .stop, .start,
      .file "f".toList "none".toList, .stop, .start, .field "b".toList, .stop]].map some) "\r\n".toList = (f, true) ∧
    f.items = [.text "a".toList "xy".toList, .upload "f".toList 0, .upload "f".toList 1, .text "b".toList []] :=
  have h := C141_parsed_partial 3 sample [[.start, .field "a".toList, .data "x".toList], [.data "y".toList, .stop,
    .start, .file "f".toList "one.txt".toList, .data "he".toList], [.data "llo".toList, .stop, .start,
    .file "f".toList "none".toList, .stop, .start, .field "b".toList, .stop]] rfl "\r\n".toList
  h.elim fun f hf => ⟨f, hf.1, hf.2.1⟩

/-- An upload of a given content. -/
def given (max : Nat) (s : Str) : Upload := ⟨"n".toList, some s.length, ⟨max, .disk, ⟨s, 0, false⟩⟩⟩

/-- Data that come after the end of a file part in a chunk of their own, such as the line end after the last
boundary, are written over the start of the file, and the size counts them. -/
theorem C141_epilogue_false : ∃ f u, parse 9 [some [.start, .file "f".toList "n".toList, .data "hello".toList, .stop],
      some [.data "\r\n".toList]] [] = (f, true) ∧ f.files = [u] ∧ u.file.file.content = "\r\nllo".toList ∧
    u.file.file.pos = 2 ∧ u.size = some 7 :=
  ⟨(parse 9 [some [.start, .file "f".toList "n".toList, .data "hello".toList, .stop], some [.data "\r\n".toList]] []).1,
    ⟨"n".toList, some 7, ⟨9, .memory, ⟨"\r\nllo".toList, 2, false⟩⟩⟩, by decide⟩

/-- The limit called `max_file_size`, "maximum size for individual file parts", refuses no file: for every limit a
file that is longer is taken. -/
theorem C141_limit_false (max : Nat) : ∃ (stream : List (Option (List Ev))) (f : Form) (u : Upload) (n : Nat),
    parse max stream [] = (f, true) ∧ u ∈ f.files ∧ u.size = some n ∧ n > max := by
  have h := C141_parsed_partial max [.file [] [] [List.replicate (max + 1) 'x']]
    [(Sent.file [] [] [List.replicate (max + 1) 'x']).events] (by simp) []
  obtain ⟨f, h1, _, h3, h4⟩ := h
  have hlt : 0 < f.files.length := by rw [h3]; simp [uploads]
  have hh := h4 0 f.files[0] ([], List.replicate (max + 1) 'x') (List.getElem?_eq_getElem hlt) (by simp [uploads])
  exact ⟨_, f, f.files[0], max + 1, h1, List.getElem_mem hlt, by rw [hh.2.2.2.2]; simp, by omega⟩

/-! ## Closing -/

/-- When a chunk cannot be parsed, a limit is exceeded or the client is gone, every file made so far is closed. -/
theorem C141_failed (max : Nat) (stream : List (Option (List Ev))) (rest : Str)
    (h : (parse max stream rest).2 = false) :
    ∀ u ∈ (parse max stream rest).1.files, u.file.file.closed = true := by
  have ht : Tracked (.new max) := fun i hi => by simp [Form.new] at hi
  have key := chunks_failed stream (.new max) ht
  unfold parse at h ⊢
  cases hc : (Form.new max).chunks stream with
  | mk f b =>
    rw [hc] at key
    cases b with
    | false => exact key rfl
    | true =>
      simp only [hc] at h
      split at h <;> simp at h

example : (parse 9 [some [.start, .file [] "n".toList, .data "he".toList], none] []).2 = false ∧
    (parse 9 [some [.start, .file [] "n".toList, .data "he".toList], none] []).1.files =
      [⟨"n".toList, some 2, ⟨9, .memory, ⟨"he".toList, 2, true⟩⟩⟩] := by decide

/-- Closing a form closes exactly the files among its items. -/
theorem C141_form_closed (f : Form) (i : Nat) (u : Upload) (h : f.files[i]? = some u) :
    ∃ v, f.closed.files[i]? = some v ∧ v.file.file.content = u.file.file.content ∧
      (v.file.file.closed = true ↔ (u.file.file.closed = true ∨ ∃ n, Item.upload n i ∈ f.items)) := by
  have e : f.closed.files[i]? = some (if i ∈ numbers f.items then (u.run .close).1 else u) := by
    simp only [Form.closed]
    rw [closeItems_eq]
    exact fold_close i _ _ u h
  by_cases hm : i ∈ numbers f.items
  · rw [if_pos hm] at e
    refine ⟨_, e, rfl, ?_⟩
    have := (mem_numbers i f.items).mp hm
    exact ⟨fun _ => Or.inr this, fun _ => rfl⟩
  · rw [if_neg hm] at e
    refine ⟨_, e, rfl, ?_⟩
    have : ¬ ∃ n, Item.upload n i ∈ f.items := fun x => hm ((mem_numbers i f.items).mpr x)
    exact ⟨Or.inl, fun x => x.elim id (fun y => absurd y this)⟩

example : ((parse 9 [some (sample.map Sent.events).flatten] []).1.closed.files.map (·.file.file.closed)) =
    [true, true] := by decide

/-- The items of a form name every file of it. -/
theorem items_cover : ∀ (ps : List Sent) (n i : Nat), n ≤ i → i < n + (uploads ps).length →
    ∃ m, Item.upload m i ∈ items n ps
  | [], n, i, h1, h2 => by simp [uploads] at h2; omega
  | .text _ _ :: ps, n, i, h1, h2 => by
    obtain ⟨m, hm⟩ := items_cover ps n i h1 h2
    exact ⟨m, by simp [items, hm]⟩
  | .file name _ _ :: ps, n, i, h1, h2 => by
    by_cases he : i = n
    · exact ⟨name, by simp [items, he]⟩
    · obtain ⟨m, hm⟩ := items_cover ps (n + 1) i (by omega) (by simp [uploads] at h2; omega)
      exact ⟨m, by simp [items, hm]⟩

/-- After a block `async with request.form()`, or after `request.close()`, every file of a form that was sent
completely is closed, and using it raises. -/
theorem C141_closed_partial (max : Nat) (parts : List Sent) (chunks : List (List Ev))
    (h : chunks.flatten = (parts.map Sent.events).flatten) (rest : Str) (a : Act) (ha : a = .leave ∨ a = .close)
    (i : Nat) (hi : i < (uploads parts).length) (o : Op) (ho : o ≠ .close) :
    ∃ r, ((Req.new.acts max (chunks.map some) rest [.form, a, .form, .use i o])).2 =
        [.done, .done, .done, .raised .value] ∧
      (Req.new.acts max (chunks.map some) rest [.form, a]).1.form = some r ∧
      ∀ u ∈ r.files, u.file.file.closed = true := by
  obtain ⟨f, h1, h2, h3, _⟩ := C141_parsed_partial max parts chunks h rest
  have hcl : ∀ u ∈ f.closed.files, u.file.file.closed = true := by
    intro u hu
    obtain ⟨j, hj⟩ := List.getElem?_of_mem hu
    have hlen : f.closed.files.length = f.files.length := by
      simp only [Form.closed]
      rw [closeItems_eq]
      exact fold_length _ (by intro fs a; simp [onFile]) _ _
    have hlt : j < f.files.length := by
      have := (List.getElem?_eq_some_iff.mp hj).1
      omega
    obtain ⟨v, e1, _, e3⟩ := C141_form_closed f j f.files[j] (List.getElem?_eq_getElem hlt)
    rw [hj] at e1
    have := Option.some.inj e1
    subst this
    obtain ⟨m, hm⟩ := items_cover parts 0 j (Nat.zero_le j) (by omega)
    exact e3.mpr (Or.inr ⟨m, h2 ▸ hm⟩)
  have hlen : f.closed.files.length = f.files.length := by
    simp only [Form.closed]
    rw [closeItems_eq]
    exact fold_length _ (by intro fs a; simp [onFile]) _ _
  have hlt : i < f.closed.files.length := by omega
  have hget : f.closed.files[i]? = some f.closed.files[i] := List.getElem?_eq_getElem hlt
  have hr := (run_closed f.closed.files[i] o (hcl _ (List.getElem_mem hlt))).2 ho
  refine ⟨f.closed, ?_, ?_, hcl⟩
  · rcases ha with ha | ha <;> subst ha <;> simp only [Req.acts, Req.act, Req.new, h1, Option.map_some, hget, hr]
  · rcases ha with ha | ha <;> subst ha <;> simp only [Req.acts, Req.act, Req.new, h1, Option.map_some]

example : (Req.new.acts 9 [some (sample.map Sent.events).flatten] [] [.form, .use 0 (.read 3), .leave, .form,
    .use 0 (.read 3)]).2 = [.done, .bytes "hel".toList, .done, .done, .raised .value] := by decide

/-- A body that ends inside a file part gives a form without that file, and neither the block nor closing the
request closes the file. -/
theorem C141_closed_false : ∃ (stream : List (Option (List Ev))) (f : Form),
    (Req.new.acts 9 stream [] [.form, .leave, .close]).1.form = some f ∧ f.items = [] ∧
      f.files.map (·.file.file.closed) = [false] :=
  ⟨[some [.start, .file [] "n".toList, .data "he".toList]],
    (Req.new.acts 9 [some [.start, .file [] "n".toList, .data "he".toList]] [] [.form, .leave, .close]).1.form.get
      (by decide), by decide⟩

/-- The form of a request is one object: who reads it again after a block has ended is given closed files. -/
theorem C141_again_false : ∃ stream : List (Option (List Ev)),
    (Req.new.acts 9 stream [] [.form, .use 0 (.read (-1)), .form, .use 0 (.seek 0), .use 0 (.read (-1))]).2 =
      [.done, .bytes "hello".toList, .done, .done, .bytes "hello".toList] ∧
    (Req.new.acts 9 stream [] [.form, .use 0 (.read (-1)), .leave, .form, .use 0 (.seek 0), .use 0 (.read (-1))]).2 =
      [.done, .bytes "hello".toList, .done, .done, .raised .value, .raised .value] :=
  ⟨[some (Sent.file [] [] ["hello".toList]).events], by decide⟩

/-- As long as no block is left, the request is not closed, and no file is closed, the files stay open. -/
theorem C141_open (max : Nat) (stream : List (Option (List Ev))) (rest : Str) : ∀ (as : List Act) (r : Req),
    (∀ f, r.form = some f → ∀ u ∈ f.files, u.file.file.closed = false) → (∀ a ∈ as, Keeps a) →
    ∀ f, (r.acts max stream rest as).1.form = some f → ∀ u ∈ f.files, u.file.file.closed = false
  | [], _, h, _ => h
  | a :: as, r, h, hk => by
    simp only [Req.acts]
    refine C141_open max stream rest as (r.act max stream rest a).1 ?_ (fun x hx => hk x (by simp [hx]))
    have hka := hk a (by simp)
    cases a with
    | form =>
      cases hf : r.form with
      | some g => simp only [Req.act, hf]; rw [← hf]; exact h
      | none =>
        simp only [Req.act, hf]
        cases hq : parse max stream rest with
        | mk g b =>
          cases b with
          | true =>
            intro f hff
            simp only [Option.some.injEq] at hff
            exact hff ▸ parse_open max stream rest g hq
          | false => intro f hff; simp [hf] at hff
    | leave => exact absurd hka id
    | close => exact absurd hka id
    | cleanup c => exact h
    | use i o =>
      cases hf : r.form with
      | none => simp only [Req.act, hf]; rw [← hf]; exact h
      | some g =>
        simp only [Req.act, hf]
        cases hg : g.files[i]? with
        | none => exact h
        | some v =>
          intro f hff
          simp only [Option.some.injEq] at hff
          subst hff
          have ho : o ≠ .close := fun e => by subst e; exact hka
          exact onFile_open g.files i o ho (h g hf)

example : ∀ a ∈ [Act.form, .use 0 (.read 2), .cleanup 4, .use 0 (.write "x".toList)], Keeps a := by
  intro a ha
  simp only [List.mem_cons, List.not_mem_nil, or_false] at ha
  rcases ha with rfl | rfl | rfl | rfl <;> exact trivial

/-- Closing the request runs the clean-ups registered so far, each once, in their order. -/
theorem C141_cleanups_partial (max : Nat) (stream : List (Option (List Ev))) (rest : Str) :
    ∀ (as : List Act) (r : Req), Act.close ∉ as →
    ((r.acts max stream rest (as ++ [.close])).1).ran = r.ran ++ r.cleanups ++ registered as
  | [], r, _ => by simp [Req.acts, Req.act, registered]
  | a :: as, r, h => by
    have ih := C141_cleanups_partial max stream rest as (r.act max stream rest a).1 (fun x => h (by simp [x]))
    simp only [List.cons_append, Req.acts]
    rw [ih]
    cases a with
    | close => exact absurd (by simp) h
    | leave => rfl
    | cleanup c => simp [Req.act, registered]
    | form =>
      have e : (r.act max stream rest .form).1.ran = r.ran ∧ (r.act max stream rest .form).1.cleanups = r.cleanups := by
        simp only [Req.act]
        split
        · exact ⟨rfl, rfl⟩
        · split <;> exact ⟨rfl, rfl⟩
      rw [e.1, e.2]; rfl
    | use i o =>
      have e : (r.act max stream rest (.use i o)).1.ran = r.ran ∧
          (r.act max stream rest (.use i o)).1.cleanups = r.cleanups := by
        simp only [Req.act]
        split
        · exact ⟨rfl, rfl⟩
        · split <;> exact ⟨rfl, rfl⟩
      rw [e.1, e.2]; rfl

example : (Req.new.acts 9 [] [] [.cleanup 3, .form, .cleanup 1, .close]).1.ran = [3, 1] := by decide

/-- A request that is closed again runs its clean-ups again. -/
theorem C141_cleanups_false : (Req.new.acts 9 [] [] [.cleanup 3, .close, .close]).1.ran = [3, 3] := by decide

/-! ## The operations -/

/-- Writing at a position puts the bytes there, keeps the others, and fills a gap with zero bytes. -/
theorem C141_write (content d : Str) (pos i : Nat) (h : d ≠ []) :
    ((Raw.write ⟨content, pos, false⟩ d).1).content[i]? =
      if pos ≤ i ∧ i < pos + d.length then d[i - pos]?
      else if i < content.length then content[i]? else if i < pos then some '\x00' else none := by
  simpa [Raw.write] using put_get content d pos i h

example : ((Raw.write ⟨"abcdef".toList, 2, false⟩ "XY".toList).1).content = "abXYef".toList ∧
    ((Raw.write ⟨"a".toList, 3, false⟩ "X".toList).1).content = "a\x00\x00X".toList := by decide

/-- Whatever the limit at which a file is moved from memory to disk, the operations on it give the same and leave
the same content and position. -/
theorem C141_spooled_partial (m n : Nat) (filename : Str) (ops : List Op) (h : ∀ o ∈ ops, Plain o) :
    ((Upload.mk filename (some 0) (.new m)).runs ops).2 = ((Upload.mk filename (some 0) (.new n)).runs ops).2 ∧
    ((Upload.mk filename (some 0) (.new m)).runs ops).1.file.file =
      ((Upload.mk filename (some 0) (.new n)).runs ops).1.file.file := by
  have h1 := runs_plain ops ⟨filename, some 0, .new m⟩ (fits_new m) h
  have h2 := runs_plain ops ⟨filename, some 0, .new n⟩ (fits_new n) h
  exact ⟨h1.2.trans h2.2.symm, h1.1.trans h2.1.symm⟩

example : ((Upload.mk [] (some 0) (.new 2)).runs [.write "hello".toList, .seek 1, .read 2, .write "p!".toList, .seek 0,
      .read (-1)]).2 = [.done, .done, .bytes "el".toList, .done, .done, .bytes "help!".toList] ∧
    ((Upload.mk [] (some 0) (.new 2)).runs [.write "hello".toList]).1.file.place = .disk := by decide

/-- A negative offset raises another exception, a negative length raises instead of reading everything, and
writing no bytes beyond the limit loses the position, depending on the limit. -/
theorem C141_spooled_false :
    ((Upload.mk [] (some 0) (.new 0)).runs [.write "a".toList, .seek (-1)]).2 = [.done, .raised .os] ∧
    ((Upload.mk [] (some 0) (.new 9)).runs [.write "a".toList, .seek (-1)]).2 = [.done, .raised .value] ∧
    ((Upload.mk [] (some 0) (.new 0)).runs [.write "a".toList, .seek 0, .read (-2)]).2 =
      [.done, .done, .raised .value] ∧
    ((Upload.mk [] (some 0) (.new 9)).runs [.write "a".toList, .seek 0, .read (-2)]).2 =
      [.done, .done, .bytes "a".toList] ∧
    ((Upload.mk [] (some 0) (.new 1)).runs [.seek 2, .write [], .write "b".toList]).1.file.file.content =
      "b".toList ∧
    ((Upload.mk [] (some 0) (.new 9)).runs [.seek 2, .write [], .write "b".toList]).1.file.file.content =
      "\x00\x00b".toList := by decide

/-- Reading a file in pieces of any lengths, and then the rest, gives its content. -/
theorem C141_read_pieces : ∀ (ns : List Nat) (u : Upload) (c : Str), u.file.file.closed = false →
    u.file.file.content.drop u.file.file.pos = c →
    got (u.runs (ns.map (fun n => .read n) ++ [.read (-1)])).2 = c
  | [], u, c, hc, h => by
    simp [Upload.runs, Upload.run, Spool.run, Raw.read, hc, got, h]
  | n :: ns, u, c, hc, h => by
    have hr : u.file.file.read u.file.place n =
        ({ u.file.file with pos := u.file.file.pos + (c.take n).length }, .bytes (c.take n)) := by
      have h1 : ¬ ((n : Int) < -1) := by omega
      have h2 : ¬ ((n : Int) < 0) := by omega
      simp [Raw.read, hc, h1, h2, h]
    have e : u.run (.read n) = ({ u with file := { u.file with file :=
        { u.file.file with pos := u.file.file.pos + (c.take n).length } } }, .bytes (c.take n)) := by
      simp only [Upload.run, Spool.run, hr, newSize]
    simp only [List.map_cons, List.cons_append, Upload.runs, e, got]
    have hd : u.file.file.content.drop (u.file.file.pos + (c.take n).length) = c.drop n := by
      rw [← List.drop_drop, h, List.length_take]
      by_cases hl : n ≤ c.length
      · rw [Nat.min_eq_left hl]
      · rw [Nat.min_eq_right (by omega), List.drop_length, List.drop_eq_nil_of_le (by omega)]
    rw [C141_read_pieces ns _ (c.drop n) (by exact hc) (by exact hd)]
    exact List.take_append_drop n c

example : ((given 9 "hello".toList).runs [.read 2, .read 0, .read 2, .read (-1)]).2 =
    [.bytes "he".toList, .bytes [], .bytes "ll".toList, .bytes "o".toList] := by decide

/-- The size counts the bytes of all writes. -/
theorem C141_counted (u : Upload) (n : Nat) (ops : List Op) (h : u.size = some n) :
    (u.runs ops).1.size = some (n + (written ops).length) := runs_size ops u n h

example : ((given 9 "hello".toList).runs [.write "ab".toList, .read 1, .write "c".toList]).1.size = some 8 := by decide

/-- A file that is written from its start to its end and then only read has the size it says, and the bytes that
were written. -/
theorem C141_size_partial (max : Nat) (filename : Str) (before after : List Op) (hb : ∀ o ∈ before, Straight o)
    (ha : ∀ o ∈ after, Still o) :
    ((Upload.mk filename (some 0) (.new max)).runs (before ++ after)).1.file.file.content = written before ∧
    ((Upload.mk filename (some 0) (.new max)).runs (before ++ after)).1.size =
      some (((Upload.mk filename (some 0) (.new max)).runs (before ++ after)).1.file.file.content.length) := by
  have hs := straight before ⟨filename, some 0, .new max⟩ ⟨fits_new max, rfl, rfl⟩ hb
  have hc : ((Upload.mk filename (some 0) (.new max)).runs (before ++ after)).1.file.file.content =
      written before := by
    rw [(runs_append before after _).1, still_runs after _ ha, hs.2]
    rfl
  refine ⟨hc, ?_⟩
  rw [hc, C141_counted _ 0 _ rfl]
  have : ∀ (as bs : List Op), (∀ o ∈ bs, Still o) → written (as ++ bs) = written as := by
    intro as bs hbs
    induction as with
    | nil =>
      induction bs with
      | nil => rfl
      | cons b bs ih =>
        have := hbs b (by simp)
        have ih' := ih (fun o ho => hbs o (by simp [ho]))
        cases b <;> first | exact absurd this id | exact ih'
    | cons a as ih => cases a <;> simp [written, ih]
  rw [this before after ha]
  simp

example : (∀ o ∈ [Op.write "he".toList, .read 3, .write "llo".toList], Straight o) ∧
    (∀ o ∈ [Op.seek 0, .read 2, .close], Still o) := by
  refine ⟨?_, ?_⟩ <;> intro o ho <;> simp only [List.mem_cons, List.not_mem_nil, or_false] at ho <;>
    rcases ho with rfl | rfl | rfl <;> simp [Straight, Still]

/-- Bytes written over others, a gap, and a write that fails make the size wrong. -/
theorem C141_size_false :
    ((given 9 "hello".toList).runs [.write "J".toList]).1.size = some 6 ∧
    ((given 9 "hello".toList).runs [.write "J".toList]).1.file.file.content = "Jello".toList ∧
    ((given 9 []).runs [.seek 3, .write "x".toList]).1.size = some 1 ∧
    ((given 9 []).runs [.seek 3, .write "x".toList]).1.file.file.content.length = 4 ∧
    ((given 9 "a".toList).runs [.close, .write "x".toList]).1.size = some 2 ∧
    ((given 9 "a".toList).runs [.close, .write "x".toList]).2 = [.done, .raised .value] := by decide

/-- A history of operations on several files. -/
def history (files : List Upload) : List (Nat × Op) → List Upload × List Out
  | [] => (files, [])
  | (i, o) :: h =>
    let out := match files[i]? with
      | some u => (u.run o).2
      | none => .raised .value
    let r := history (onFile files i o) h
    (r.1, out :: r.2)

/-- Operations on one file do not concern another: each file gives what it gives alone. -/
theorem C141_apart : ∀ (h : List (Nat × Op)) (files : List Upload) (i : Nat) (u : Upload), files[i]? = some u →
    outsOf i h (history files h).2 = (u.runs (opsOf i h)).2 ∧
      (history files h).1[i]? = some (u.runs (opsOf i h)).1
  | [], files, i, u, hu => ⟨rfl, hu⟩
  | (j, o) :: h, files, i, u, hu => by
    by_cases hj : j = i
    · subst hj
      have e : (onFile files j o)[j]? = some (u.run o).1 := by simp [onFile, hu]
      obtain ⟨h1, h2⟩ := C141_apart h _ j _ e
      simp only [history, hu, outsOf, opsOf, if_true, Upload.runs]
      exact ⟨by rw [h1], h2⟩
    · have e : (onFile files j o)[i]? = some u := by simp [onFile, hj, hu]
      obtain ⟨h1, h2⟩ := C141_apart h _ i _ e
      simp only [history, outsOf, opsOf, hj, if_false]
      exact ⟨h1, h2⟩

example : (history [given 9 "ab".toList, given 9 "cd".toList] [(0, .read 1), (1, .read (-1)), (0, .close), (1, .seek 1),
    (0, .read 1), (1, .read 1)]).2 =
      [.bytes "a".toList, .bytes "cd".toList, .done, .done, .raised .value, .bytes "d".toList] := by decide

end Verif.Uploads.Props
