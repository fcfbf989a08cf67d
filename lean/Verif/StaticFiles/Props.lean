import Verif.StaticFiles.Lemmas

/-!
# C43: static file serving cannot leave its directory
# C44: conditional static requests follow the HTTP precondition order
# C53: which file a static request gets
-/

namespace Verif.StaticFiles

open Spec

/-! ## C43 -/

/-- **C43, the path.**  For every request path, the path looked up in the directories is relative and
has no `..` component. -/
theorem C43_path (routePath : Str) :
    NoParent (getPath routePath) ∧ Relative (getPath routePath) := by
  obtain ⟨l, h1, h2, _⟩ := getPath_shape routePath
  rw [h1]
  constructor
  · unfold NoParent
    rw [split_text l h2]
    split
    · decide
    · exact notin_names l h2
  · unfold Relative
    have := text_relative l h2
    intro h
    cases ht : text l with
    | nil => rw [ht] at h; cases h
    | cons a t =>
      rw [ht] at h this
      have : ('/' == a && true) = false := this
      rw [Option.some.inj h] at this
      cases this

example :
    getPath "/../../etc/passwd".toList = "etc/passwd".toList ∧
    getPath "../../../etc/./x//y/..".toList = "etc/x".toList ∧
    getPath "/css/../js/app.js".toList = "js/app.js".toList ∧
    getPath "..".toList = ".".toList := by decide +kernel

/-- **C43, the directory.**  With `follow_symlink=True` (where paths are only normalised as text)
every path looked up — `path` being the request's path, its index page or the 404 page — lies below
the directory, whatever the working directory. -/
theorem C43_below (w : World) (directory path : Str)
    (hcwd : startsWith w.cwd ['/'] = true) (hd : directory ≠ [])
    (hp : NoParent path) (hr : Relative path) :
    Below (abspath w.cwd directory) (fullPath w true directory path) ∧
    steps (fullPath w true directory path) = steps (abspath w.cwd directory) ++ steps path := by
  have hrel : startsWith path ['/'] = false := by
    cases path with
    | nil => rfl
    | cons a t =>
      show ('/' == a && true) = false
      have : '/' ≠ a := fun e => hr (by rw [e]; rfl)
      rw [beq_eq_false_iff_ne.mpr this]
      rfl
  obtain ⟨h1, h2⟩ := steps_abspath w.cwd directory path hcwd hd hrel hp
  have hfull : fullPath w true directory path = abspath w.cwd (join2 directory path) := rfl
  rw [hfull]
  exact ⟨⟨steps path, h1, (fun hm => (steps_names path hp _ hm).2.2.1 rfl), h2⟩, h1⟩

/-- **C43, without symbolic links.**  With `follow_symlink=False` the same holds when no part of
the path is a symbolic link (the directory being absolute and without `..`). -/
theorem C43_below_partial (w : World) (directory path : Str)
    (hd : startsWith directory ['/'] = true) (hdp : NoParent directory)
    (hp : NoParent path) (hr : Relative path)
    (hfuel : (splitOn '/' (join2 directory path)).length ≤ w.fuel)
    (hlinks : ∀ q, q <+: steps directory ++ steps path → w.links q = none) :
    Below directory (fullPath w false directory path) ∧
    steps (fullPath w false directory path) = steps directory ++ steps path := by
  have hrel : startsWith path ['/'] = false := by
    cases path with
    | nil => rfl
    | cons a t =>
      show ('/' == a && true) = false
      have : '/' ≠ a := fun e => hr (by rw [e]; rfl)
      rw [beq_eq_false_iff_ne.mpr this]
      rfl
  have hne : directory ≠ [] := by rintro rfl; cases hd
  obtain ⟨ds, h1, _, h3, h4⟩ := split_join2 directory path hne hrel
  have hsteps : steps (join2 directory path) = steps directory ++ steps path := by
    unfold steps
    rw [h1, List.filter_append, h4]
  have hnp : ['.', '.'] ∉ splitOn '/' (join2 directory path) := by
    rw [h1]
    intro hm
    rcases List.mem_append.mp hm with h | h
    · exact hdp (h3 _ h)
    · exact hp h
  have hfull : fullPath w false directory path = realpath w.links w.fuel (join2 directory path) := by
    unfold fullPath
    dsimp only
    rw [if_neg (by simp), join2_abs directory path hd hrel]
    rfl
  have hreal := steps_realpath w.links w.fuel (join2 directory path) hnp hfuel
    (by rw [hsteps]; exact hlinks)
  rw [hfull, hreal, hsteps]
  refine ⟨⟨steps path, by rw [hreal, hsteps], ?_, ?_⟩, rfl⟩
  · exact fun hm => (steps_names path hp _ hm).2.2.1 rfl
  · rw [hreal]
    exact fun hm => (steps_names _ hnp _ hm).2.2.1 rfl

/-- A world with one link in the directory, pointing out of it. -/
def linked : World where
  cwd := "/".toList
  links := fun q => if q = ["srv".toList, "docs".toList] then some "/etc".toList else none
  fuel := 20

example :
    fullPath linked true "/srv".toList (getPath "/../css/a.css".toList) = "/srv/css/a.css".toList ∧
    fullPath linked false "/srv".toList (getPath "/../css/a.css".toList) = "/srv/css/a.css".toList := by
  decide +kernel

/-- A world with a link that goes up, relative to the place it is in. -/
def linkedUp : World where
  cwd := "/".toList
  links := fun q => if q = ["srv".toList, "www".toList, "docs".toList] then some "../secret".toList else none
  fuel := 20

/-- **C43 is false with relative links** as well: the target is looked up beside the link and served. -/
theorem C43_relative_symlink_false :
    fullPath linkedUp false "/srv/www".toList (getPath "/docs/key".toList) = "/srv/secret/key".toList := by
  decide +kernel

/-- **C43 is false with symbolic links**: with `follow_symlink=False`, the default, a link inside the
directory is resolved and its target is served, without a check that it is inside. -/
theorem C43_symlink_false :
    fullPath linked false "/srv".toList (getPath "/docs/passwd".toList) = "/etc/passwd".toList ∧
    ¬ Below "/srv".toList (fullPath linked false "/srv".toList (getPath "/docs/passwd".toList)) := by
  have h : fullPath linked false "/srv".toList (getPath "/docs/passwd".toList)
      = "/etc/passwd".toList := by decide +kernel
  refine ⟨h, ?_⟩
  rw [h]
  rintro ⟨rest, h1, _, _⟩
  have e1 : steps "/etc/passwd".toList = ["etc".toList, "passwd".toList] := by decide +kernel
  have e2 : steps "/srv".toList = ["srv".toList] := by decide +kernel
  rw [e1, e2] at h1
  have := (List.cons.inj h1).1
  exact absurd this (by decide)

/-- **C43, ordinary paths are looked up as they are**: a path without `..` whose first step does not begin with a dot. -/
theorem C43_plain (routePath : Str) (hn : NoParent routePath)
    (hdot : ∀ n ∈ (steps routePath).head?, n.head? ≠ some '.') :
    steps (getPath routePath) = steps routePath := by
  obtain ⟨l, h1, h2, h3⟩ := getPath_shape routePath
  have hc : normComps (startsWith routePath ['/']) (splitOn '/' routePath) = steps routePath := by
    unfold normComps
    rw [foldl_norm _ _ _ hn]
    rfl
  rw [hc] at h3
  rw [h1, steps_text l h2]
  exact h3 (steps_names routePath hn) hdot

example : startsWith "/css/./app.js".toList ['/'] = true ∧
    getPath "/css/./app.js".toList = "css/app.js".toList := by decide +kernel

/-- A first step beginning with dots loses them: `/.env` looks up the file `env`, and
`/.well-known/x` cannot be served. -/
theorem C43_dotfile :
    getPath "/.env".toList = "env".toList ∧
    getPath "/.well-known/x".toList = "well-known/x".toList := by decide +kernel

/-! ## C53 -/

/-- **C53.**  A request gets the file `f` exactly when its method is GET or HEAD and either `f`
is a regular file and the first thing found under the path, or (in HTML mode, for a path ending
in a slash) the first thing found is a directory and `f` is a regular file and the first thing found
as its index page. -/
theorem C53_file (c : Conf) (stat : Str → Kind) (method : Str) (endsWithSlash : Bool)
    (path f : Str) :
    getResponse c stat method endsWithSlash path = .file f ↔
      (method = "GET".toList ∨ method = "HEAD".toList) ∧
      ((First stat (c.full path) f ∧ stat f = .regular) ∨
       (c.html = true ∧ endsWithSlash = true ∧
        (∃ d, First stat (c.full path) d ∧ stat d = .directory) ∧
        First stat (c.full (join2 path "index.html".toList)) f ∧ stat f = .regular)) := by
  generalize hidx : join2 path "index.html".toList = idx
  unfold getResponse index
  rw [hidx]
  dsimp only
  by_cases hm : method ≠ "GET".toList ∧ method ≠ "HEAD".toList
  · rw [if_pos hm]
    constructor
    · intro h; cases h
    · rintro ⟨h | h, _⟩
      · exact absurd h hm.1
      · exact absurd h hm.2
  · rw [if_neg hm]
    have hm' : method = "GET".toList ∨ method = "HEAD".toList := by
      by_cases h1 : method = "GET".toList
      · exact Or.inl h1
      · by_cases h2 : method = "HEAD".toList
        · exact Or.inr h2
        · exact absurd ⟨h1, h2⟩ hm
    rcases hl : lookup stat (c.full path) with ⟨g, k⟩
    have huniq : ∀ d, First stat (c.full path) d → d = g ∧ stat d = k := by
      intro d hd
      have := (first_iff stat (c.full path) d (stat d) hd.choose_spec.choose_spec.2.2).mpr ⟨hd, rfl⟩
      rw [hl] at this
      obtain ⟨e1, e2⟩ := Prod.mk.inj this
      exact ⟨e1.symm, e2.symm⟩
    dsimp only
    have hbad : ∀ kind, k = kind → kind ≠ .regular → (kind ≠ .directory ∨ c.html = false) →
        ¬ ((First stat (c.full path) f ∧ stat f = .regular) ∨
       (c.html = true ∧ endsWithSlash = true ∧
        (∃ d, First stat (c.full path) d ∧ stat d = .directory) ∧
        First stat (c.full idx) f ∧ stat f = .regular)) := by
      rintro kind rfl hk1 hk2 (⟨h1, h2⟩ | ⟨h1, _, ⟨d, h3, h4⟩, _⟩)
      · exact hk1 ((huniq f h1).2.symm.trans h2)
      · rcases hk2 with h | h
        · exact h ((huniq d h3).2.symm.trans h4)
        · rw [h] at h1; cases h1
    by_cases h1 : k = .denied
    · rw [if_pos h1]
      constructor
      · intro h; cases h
      · rintro ⟨_, h⟩
        exact absurd h (hbad _ h1 (fun hh => by cases hh) (Or.inl (fun hh => by cases hh)))
    rw [if_neg h1]
    by_cases h2 : k = .broken
    · rw [if_pos h2]
      constructor
      · intro h; cases h
      · rintro ⟨_, h⟩
        exact absurd h (hbad _ h2 (fun hh => by cases hh) (Or.inl (fun hh => by cases hh)))
    rw [if_neg h2]
    by_cases h3 : k = .regular
    · rw [if_pos h3]
      subst h3
      have hg := (first_iff stat (c.full path) g .regular (fun hh => by cases hh)).mp hl
      constructor
      · intro h
        cases h
        exact ⟨hm', Or.inl hg⟩
      · rintro ⟨_, ⟨h4, _⟩ | ⟨_, _, ⟨d, h4, h5⟩, _⟩⟩
        · rw [(huniq f h4).1]
        · have := (huniq d h4).2
          rw [h5] at this
          cases this
    rw [if_neg h3]
    by_cases h4 : k = .directory ∧ c.html = true
    · rw [if_pos h4]
      obtain ⟨h4a, h4b⟩ := h4
      subst h4a
      have hg := (first_iff stat (c.full path) g .directory (fun hh => by cases hh)).mp hl
      have hrw : (method = "GET".toList ∨ method = "HEAD".toList) ∧
      ((First stat (c.full path) f ∧ stat f = .regular) ∨
       (c.html = true ∧ endsWithSlash = true ∧
        (∃ d, First stat (c.full path) d ∧ stat d = .directory) ∧
        First stat (c.full idx) f ∧ stat f = .regular)) ↔
        (endsWithSlash = true ∧ First stat (c.full idx) f ∧ stat f = .regular) := by
        constructor
        · rintro ⟨_, ⟨h5, h6⟩ | ⟨_, h5, _, h6⟩⟩
          · have := (huniq f h5).2
            rw [h6] at this; cases this
          · exact ⟨h5, h6⟩
        · rintro ⟨h5, h6⟩
          exact ⟨hm', Or.inr ⟨h4b, h5, ⟨g, hg⟩, h6⟩⟩
      rw [hrw]
      rcases hli : lookup stat (c.full idx) with ⟨i, ki⟩
      dsimp only
      by_cases h5 : ki = .regular
      · rw [if_pos h5]
        subst h5
        have hi := (first_iff stat (c.full idx) i .regular (fun hh => by cases hh)).mp hli
        cases endsWithSlash with
        | false =>
          constructor
          · intro h; cases h
          · rintro ⟨h, _⟩; cases h
        | true =>
          constructor
          · intro h
            cases h
            exact ⟨rfl, hi⟩
          · rintro ⟨_, h6⟩
            have := (first_iff stat (c.full idx) f .regular (fun hh => by cases hh)).mpr h6
            rw [hli] at this
            rw [(Prod.mk.inj this).1]
            rfl
      · have hno : ¬ (endsWithSlash = true ∧ First stat (c.full idx) f ∧ stat f = .regular) := by
          rintro ⟨_, h6⟩
          have := (first_iff stat (c.full idx) f .regular (fun hh => by cases hh)).mpr h6
          rw [hli] at this
          exact h5 (Prod.mk.inj this).2
        rw [if_neg h5]
        constructor
        · intro h
          split at h
          · cases h
          · exact absurd h (notFound_not_file c stat f)
        · intro h; exact absurd h hno
    · rw [if_neg h4]
      constructor
      · intro h; exact absurd h (notFound_not_file c stat f)
      · rintro ⟨_, h⟩
        refine absurd h (hbad k rfl h3 ?_)
        by_cases hk : k = .directory
        · refine Or.inr ?_
          rw [← Bool.not_eq_true]
          exact fun hh => h4 ⟨hk, hh⟩
        · exact Or.inl hk

/-- Two directories; `a` is in the second only, `d` is a directory in the first and a file in the
second. -/
def twoDirs : Conf where
  html := false
  fallThrough := false
  full := fun p => ["/one/".toList ++ p, "/two/".toList ++ p]

/-- The file system for `twoDirs`. -/
def twoStat (p : Str) : Kind :=
  if p = "/two/a".toList ∨ p = "/two/d".toList then .regular
  else if p = "/one/d".toList then .directory else .missing

example : getResponse twoDirs twoStat "GET".toList false "a".toList = .file "/two/a".toList ∧
    getResponse twoDirs twoStat "POST".toList false "a".toList = .error 405 ∧
    getResponse twoDirs twoStat "GET".toList false "b".toList = .error 404 := by decide +kernel

/-- A directory hides a file of the same name in a later directory, which is never served. -/
theorem C53_hidden :
    getResponse twoDirs twoStat "GET".toList false "d".toList = .error 404 ∧
    twoStat "/two/d".toList = .regular := by decide +kernel

/-- **C53, nothing there.**  When no directory has anything under the path, the request goes on to the
next route if so configured; otherwise the answer is 404: the first `404.html` in HTML mode if it is a
regular file, else an error.  Only a `404.html` that cannot be looked at raises. -/
theorem C53_missing (c : Conf) (stat : Str → Kind) (method : Str) (endsWithSlash : Bool) (path : Str)
    (hm : method = "GET".toList ∨ method = "HEAD".toList) (hno : ∀ f ∈ c.full path, stat f = .missing) :
    (c.fallThrough = true → getResponse c stat method endsWithSlash path = .continueRouting) ∧
    (c.fallThrough = false → c.html = false → getResponse c stat method endsWithSlash path = .error 404) ∧
    (c.fallThrough = false → c.html = true →
      (∀ f ∈ c.full "404.html".toList, stat f = .missing) →
        getResponse c stat method endsWithSlash path = .error 404) ∧
    (c.fallThrough = false → c.html = true → ∀ f, First stat (c.full "404.html".toList) f →
      (stat f = .regular → getResponse c stat method endsWithSlash path = .notFoundPage f) ∧
      (stat f = .directory ∨ stat f = .other → getResponse c stat method endsWithSlash path = .error 404) ∧
      (stat f = .denied ∨ stat f = .broken → getResponse c stat method endsWithSlash path = .raises)) := by
  have hl : getResponse c stat method endsWithSlash path = notFound c stat := by
    unfold getResponse
    rw [if_neg (by rintro ⟨h1, h2⟩; exact hm.elim h1 h2), lookup_missing stat _ hno]
    rfl
  rw [hl]
  unfold notFound
  refine ⟨?_, ?_, ?_, ?_⟩
  · intro h; rw [if_pos h]
  · intro h1 h2; rw [h1, h2]; rfl
  · intro h1 h2 h3; rw [h1, h2, lookup_missing stat _ h3]; rfl
  · intro h1 h2 f ⟨b, a, e, hb, hf⟩
    rw [h1, h2, e, lookup_of_found stat b a f hb hf]
    refine ⟨?_, ?_, ?_⟩
    · intro h; rw [h]; rfl
    · rintro (h | h) <;> rw [h] <;> rfl
    · rintro (h | h) <;> rw [h] <;> rfl

/-- **C53, a directory without a page.**  In HTML mode a directory whose `index.html` is missing or no regular
file is answered as if there were nothing; without a slash at the end of the path a directory with a page is
answered with a redirect, and only a page that cannot be looked at raises. -/
theorem C53_directory (c : Conf) (stat : Str → Kind) (method : Str) (endsWithSlash : Bool) (path d : Str)
    (hm : method = "GET".toList ∨ method = "HEAD".toList) (hh : c.html = true)
    (hd : First stat (c.full path) d) (hk : stat d = .directory) :
    ((∀ f ∈ c.full (join2 path "index.html".toList), stat f = .missing) →
      getResponse c stat method endsWithSlash path = notFound c stat) ∧
    (∀ f, First stat (c.full (join2 path "index.html".toList)) f →
      (stat f = .directory ∨ stat f = .other → getResponse c stat method endsWithSlash path = notFound c stat) ∧
      (stat f = .regular → getResponse c stat method endsWithSlash path =
        if endsWithSlash then .file f else .redirect) ∧
      (stat f = .denied ∨ stat f = .broken → getResponse c stat method endsWithSlash path = .raises)) := by
  have hl : getResponse c stat method endsWithSlash path = index c stat endsWithSlash path := by
    obtain ⟨b, a, e, hb, hf⟩ := hd
    unfold getResponse
    rw [if_neg (by rintro ⟨h1, h2⟩; exact hm.elim h1 h2), e, lookup_of_found stat b a d hb hf, hk, hh]
    rfl
  rw [hl]
  unfold index
  constructor
  · intro h
    rw [lookup_missing stat _ h]
    rfl
  · intro f ⟨b, a, e, hb, hf⟩
    rw [e, lookup_of_found stat b a f hb hf]
    refine ⟨?_, ?_, ?_⟩
    · rintro (h | h) <;> rw [h] <;> rfl
    · intro h; rw [h]; rfl
    · rintro (h | h) <;> rw [h] <;> rfl

example : getResponse { twoDirs with html := true } (fun p => if p = "/two/404.html".toList then .regular else .missing)
    "GET".toList false "b".toList = .notFoundPage "/two/404.html".toList := by decide +kernel

/-- **C43, the answer.**  With `follow_symlink=True`, whatever the request, a file that is sent —
the file asked for, an index page or the 404 page — lies below one of the directories. -/
theorem C43_served (w : World) (directories : List Str) (html fallThrough : Bool)
    (stat : Str → Kind) (method routePath : Str) (endsWithSlash : Bool) (f : Str)
    (hcwd : startsWith w.cwd ['/'] = true) (hd : [] ∉ directories)
    (h : getResponse ⟨html, fallThrough, fun p => directories.map (fun d => fullPath w true d p)⟩ stat
          method endsWithSlash (getPath routePath) = .file f ∨
         getResponse ⟨html, fallThrough, fun p => directories.map (fun d => fullPath w true d p)⟩ stat
          method endsWithSlash (getPath routePath) = .notFoundPage f) :
    ∃ d ∈ directories, Below (abspath w.cwd d) f := by
  have hmem : ∀ path, NoParent path → Relative path →
      f ∈ directories.map (fun d => fullPath w true d path) →
      ∃ d ∈ directories, Below (abspath w.cwd d) f := by
    intro path h1 h2 hm
    obtain ⟨d, hd1, rfl⟩ := List.mem_map.mp hm
    exact ⟨d, hd1, (C43_below w d path hcwd (fun e => hd (e ▸ hd1)) h1 h2).1⟩
  have hfirst : ∀ path, NoParent path → Relative path →
      First stat (directories.map (fun d => fullPath w true d path)) f →
      ∃ d ∈ directories, Below (abspath w.cwd d) f := by
    rintro path h1 h2 ⟨b, a, e, _⟩
    exact hmem path h1 h2 (by rw [e]; exact List.mem_append.mpr (Or.inr List.mem_cons_self))
  obtain ⟨hp1, hp2⟩ := C43_path routePath
  rcases h with h | h
  · rw [C53_file] at h
    rcases h.2 with ⟨h1, _⟩ | ⟨_, _, _, h1, _⟩
    · exact hfirst _ hp1 hp2 h1
    · obtain ⟨i1, i2⟩ := index_path _ (getPath_ne routePath) hp1 hp2
      exact hfirst _ i1 i2 h1
  · have h1 := notFoundPage_first _ stat method endsWithSlash _ f h
    refine hfirst _ ?_ ?_ h1
    · unfold NoParent; decide
    · unfold Relative; decide

example : getResponse ⟨true, false, fun p => ["/srv".toList].map (fun d => fullPath linked true d p)⟩
    (fun p => if p = "/srv/docs".toList then .directory
      else if p = "/srv/docs/index.html".toList then .regular else .missing)
    "GET".toList true (getPath "/docs/".toList) = .file "/srv/docs/index.html".toList := by
  decide +kernel

/-! ## C44 -/

/-- **C44, one kind of header.**  When at most one of the two headers is given, a static file is
answered with 304 exactly when the rule says so: the `If-None-Match` list (of ordinary tags) contains
its entity tag, or there is no such header and `If-Modified-Since` is a date not before its
modification date.  Missing: both headers together (see `C44_both`), `*`. -/
theorem C44_partial (parsedate : Str → Option (List Nat)) (tag lastModified : Str)
    (modified : Date) (ifNoneMatch ifModifiedSince : Option Str) (since : Option Date)
    (hm : parsedate lastModified = some modified.tuple) (hv : modified.Valid)
    (hs : ifModifiedSince.bind parsedate = since.map Date.tuple)
    (hsv : ∀ d, since = some d → d.Valid)
    (hone : ifNoneMatch = none ∨ ifModifiedSince = none)
    (hplain : ∀ list, ifNoneMatch = some list → PlainList list) :
    isNotModified parsedate (some tag) (some lastModified) ifNoneMatch ifModifiedSince = true ↔
      NotModified tag modified ifNoneMatch since := by
  unfold isNotModified NotModified
  cases ifNoneMatch with
  | some list =>
    have hnone : ifModifiedSince = none := by
      rcases hone with h | h
      · cases h
      · exact h
    subst hnone
    dsimp only
    rw [Bool.or_false]
    exact lists_iff list tag (hplain list rfl)
  | none =>
    dsimp only
    rw [Bool.false_or]
    cases ifModifiedSince with
    | none =>
      have : since = none := by
        cases since with
        | none => rfl
        | some d => cases hs
      subst this
      dsimp only
      exact ⟨(fun h => by cases h), (fun ⟨_, h, _⟩ => by cases h)⟩
    | some s =>
      dsimp only
      have hs' : parsedate s = since.map Date.tuple := hs
      rw [hm, hs']
      cases since with
      | none => exact ⟨(fun h => by cases h), (fun ⟨_, h, _⟩ => by cases h)⟩
      | some d =>
        have := tuple_order d modified (hsv d rfl) hv
        constructor
        · intro h
          exact ⟨d, rfl, this.mp h⟩
        · rintro ⟨d', h1, h2⟩
          cases h1
          exact this.mpr h2

/-- **C44, both headers, what the code does**: 304 exactly when either condition holds. -/
theorem C44_both (parsedate : Str → Option (List Nat)) (tag lastModified list s : Str)
    (modified since : Date)
    (hm : parsedate lastModified = some modified.tuple) (hv : modified.Valid)
    (hs : parsedate s = some since.tuple) (hsv : since.Valid) (hplain : PlainList list) :
    isNotModified parsedate (some tag) (some lastModified) (some list) (some s) = true ↔
      Lists list tag ∨ modified.position ≤ since.position := by
  unfold isNotModified
  dsimp only
  rw [Bool.or_eq_true, lists_iff list tag hplain, hm, hs]
  dsimp only
  rw [tuple_order since modified hsv hv]

/-- A parser for two dates, enough for the examples. -/
def twoDates (s : Str) : Option (List Nat) :=
  if s = "mon".toList then some [2024, 1, 1, 10, 0, 0]
  else if s = "tue".toList then some [2024, 1, 2, 9, 0, 0] else none

example :
    isNotModified twoDates (some "abc".toList) (some "mon".toList) (some "x, W/abc".toList) none = true ∧
    isNotModified twoDates (some "abc".toList) (some "mon".toList) (some "x, y".toList) none = false ∧
    isNotModified twoDates (some "abc".toList) (some "mon".toList) none (some "tue".toList) = true ∧
    isNotModified twoDates (some "abc".toList) (some "tue".toList) none (some "mon".toList) = false := by
  decide +kernel

example : PlainList "x, W/abc".toList := by
  unfold PlainList
  decide +kernel

/-- **C44 is false when both headers are given**: the entity tag differs (the file changed), but the
date lets the code answer 304. -/
theorem C44_false :
    isNotModified twoDates (some "new".toList) (some "mon".toList) (some "old".toList)
      (some "tue".toList) = true ∧
    ¬ NotModified "new".toList ⟨2024, 1, 1, 10, 0, 0⟩ (some "old".toList)
      (some ⟨2024, 1, 2, 9, 0, 0⟩) := by
  refine ⟨by decide +kernel, ?_⟩
  unfold NotModified Lists
  decide +kernel

/-- `If-None-Match: *`, which stands for any tag, is not understood; and a tag may carry any
number of the characters of `W/` at either end. -/
theorem C44_tags_false :
    isNotModified twoDates (some "abc".toList) (some "mon".toList) (some "*".toList) none = false ∧
    isNotModified twoDates (some "abc".toList) (some "mon".toList) (some "abcW".toList) none = true ∧
    ¬ Lists "abcW".toList "abc".toList := by
  refine ⟨by decide +kernel, by decide +kernel, ?_⟩
  unfold Lists
  decide +kernel

end Verif.StaticFiles
