import Verif.Scaffold.Lemmas

/-!
# C113: new projects, applications and deployments
-/

namespace Verif.Scaffold.Props

open Verif Verif.Scaffold Verif.Scaffold.Spec

/-- A small template. -/
def sampleTree : Tree :=
  .node [] [("README.md.e-tpl".toList, "read".toList)]
    [.node "project_name".toList [("main.py-tpl".toList, "main".toList), ("x.pyc".toList, "no".toList)]
      [.node "__pycache__".toList [("y.py".toList, "no".toList)] []]]

/-- A project called `shop`. -/
def sample : Ctx := ⟨"project_name".toList, "shop".toList, "v1".toList, "deployment".toList, fun s => s ++ ['!']⟩

/-- An empty file system with one directory. -/
def empty : Fs := ⟨[], [[], ["home".toList]]⟩

/-- Nothing can be imported. -/
def nothing : Str → Importing := fun _ => .missing

/-- A file or directory that was there is never changed, however the directive ends, for any number of names. -/
theorem C113_kept (importing : Str → Importing) (ctx : Str → Ctx) (location : Path) (j : Job) (fs : Fs)
    (names : List Str) : Kept fs (createAll importing ctx location j fs names).1 := by
  have hfill : ∀ x top fs, Kept fs (fill x top fs j).1 := by
    intro x top fs
    unfold fill
    have h1 := makeDirs_kept x false top (walk [] j.template) fs
    rcases hm : makeDirs x false top fs (walk [] j.template) with ⟨fs', r⟩
    rw [hm] at h1
    cases r with
    | done =>
      dsimp only
      cases j.deployment with
      | none => exact h1
      | some t => exact kept_trans _ _ _ h1 (makeDirs_kept x true top (walk [] t) fs')
    | refused => exact h1
    | raised => exact h1
  have hhandle : ∀ x fs, Kept fs (handle importing x location fs j).1 := by
    intro x fs
    unfold handle
    cases validate importing x.name with
    | refused => exact kept_refl fs
    | raised => exact kept_refl fs
    | done =>
      dsimp only
      split
      · exact kept_refl fs
      · cases hm : fs.mkdirs (location ++ [x.name]) with
        | none => exact kept_refl fs
        | some fs' => exact kept_trans _ _ _ (kept_mkdirs _ _ _ hm).1 (hfill _ _ _)
  induction names generalizing fs with
  | nil => exact kept_refl fs
  | cons n rest ih =>
    have h1 := hhandle (ctx n) fs
    rw [createAll]
    rcases hm : handle importing (ctx n) location fs j with ⟨fs', r⟩
    rw [hm] at h1
    cases r with
    | raised => exact h1
    | done => exact kept_trans _ _ _ h1 (ih fs')
    | refused => exact kept_trans _ _ _ h1 (ih fs')

/-- The same for deployments. -/
theorem C113_kept_deployment (x : Ctx) (location : Path) (fs : Fs) (t : Tree) :
    Kept fs (createDeployment x location fs t).1 := by
  unfold createDeployment
  split
  · exact kept_refl fs
  · split
    · exact kept_refl fs
    · rename_i h
      exact kept_trans _ _ _ (kept_mkdirs _ _ _ h).1 (makeDirs_kept _ _ _ _ _)

/-- A name which is no identifier, a name which can be imported, and a name that is taken: nothing is made. -/
theorem C113_refused (importing : Str → Importing) (x : Ctx) (location : Path) (fs : Fs) (j : Job)
    (h : isIdentifier x.name = false ∨ importing x.name = .found ∨
      (importing x.name = .missing ∧ fs.exists (location ++ [x.name]) = true)) :
    handle importing x location fs j = (fs, .refused) := by
  unfold handle validate
  by_cases hid : isIdentifier x.name = true
  · rw [if_pos hid]
    rcases h with h | h | ⟨h, he⟩
    · rw [hid] at h; cases h
    · rw [h]
    · rw [h]
      dsimp only
      rw [if_pos he]
  · rw [if_neg hid]

example : isIdentifier "my-project".toList = false ∧ isIdentifier "../x".toList = false ∧
    isIdentifier "shop".toList = true := by decide

/-- A project or application: every file of its template is in its place, with the rendered text.  Partial: if all
new names are ordinary; the text if the name of the file has no base name in it. -/
theorem C113_made_partial (importing : Str → Importing) (x : Ctx) (location : Path) (fs : Fs) (t : Tree)
    (ht : Tidy x t) (h : (handle importing x location fs ⟨t, none⟩).2 = .done) (p : Path) (f text : Str)
    (hf : Has t p f text) (hc : compiled f = false) :
    ∃ out, aget (handle importing x location fs ⟨t, none⟩).1.files (place x (location ++ [x.name]) p f) = some out ∧
      (replaceFrom x.base x.name 0 f = f → out = x.render text) := by
  obtain ⟨_, fs', hm, he⟩ := handle_done importing x location fs t h
  rw [he] at h ⊢
  obtain ⟨d, hd, hp, hfd⟩ := has_walk t p f text hf []
  have hdir : ∀ n ∈ p, Plain (renderName x n) := by
    obtain ⟨q, hq, hqd, _⟩ := walk_has [] t d hd
    have : p = q := by rw [hp] at hq; simpa using hq
    rw [this]
    exact ht.1 q hqd
  obtain ⟨out, ho, hr⟩ := makeDirs_done x false (location ++ [x.name]) (walk [] t) fs' h d hd (f, text) hfd hc
  refine ⟨out, ?_, hr⟩
  rw [← goes x (location ++ [x.name]) p f hdir (ht.2 p f text hf hc).1]
  rw [hp] at ho
  exact ho

example : (handle nothing sample ["home".toList] empty ⟨sampleTree, none⟩).1.files
    = [(["home".toList, "shop".toList, "README.md".toList], "read!".toList),
       (["home".toList, "shop".toList, "shop".toList, "main.py".toList], "main!".toList)] ∧
    (handle nothing sample ["home".toList] empty ⟨sampleTree, none⟩).2 = .done := by decide +kernel

/-- Nothing else is made: a file that is new is a file of the template in its place, however the directive ends. -/
theorem C113_only (importing : Str → Importing) (x : Ctx) (location : Path) (fs : Fs) (t : Tree) (ht : Tidy x t)
    (p : Path) (out : Str) (h : aget (handle importing x location fs ⟨t, none⟩).1.files p = some out)
    (hn : aget fs.files p = none) :
    ∃ q f text, Has t q f text ∧ compiled f = false ∧ p = place x (location ++ [x.name]) q f := by
  unfold handle at h
  cases hv : validate importing x.name with
  | refused => rw [hv, hn] at h; cases h
  | raised => rw [hv, hn] at h; cases h
  | done =>
    rw [hv] at h
    dsimp only at h
    split at h
    · rw [hn] at h; cases h
    · cases hm : fs.mkdirs (location ++ [x.name]) with
      | none => rw [hm, hn] at h; cases h
      | some fs' =>
        rw [hm] at h
        have hfill : fill x (location ++ [x.name]) fs' ⟨t, none⟩
            = makeDirs x false (location ++ [x.name]) fs' (walk [] t) := by
          dsimp only [fill]
          rcases makeDirs x false (location ++ [x.name]) fs' (walk [] t) with ⟨a, r⟩
          cases r <;> rfl
        dsimp only at h
        rw [hfill] at h
        obtain ⟨d, hd, f, hf, hc, hp⟩ := makeDirs_new x false _ (walk [] t) fs' p out h
          (by rw [(kept_mkdirs _ _ _ hm).2]; exact hn)
        obtain ⟨q, hq, hqd, hqf⟩ := walk_has [] t d hd
        have hq' : d.1 = q := by simpa using hq
        refine ⟨q, f.1, f.2, hqf f hf, hc, ?_⟩
        rw [hp, hq']
        exact goes x _ q f.1 (ht.1 q hqd) (ht.2 q f.1 f.2 (hqf f hf) hc).1

/-- So all that is made is below the directory of the project. -/
theorem C113_below (importing : Str → Importing) (x : Ctx) (location : Path) (fs : Fs) (t : Tree) (ht : Tidy x t)
    (p : Path) (out : Str) (h : aget (handle importing x location fs ⟨t, none⟩).1.files p = some out)
    (hn : aget fs.files p = none) : Below (location ++ [x.name]) p := by
  obtain ⟨q, f, text, _, _, rfl⟩ := C113_only importing x location fs t ht p out h hn
  exact ⟨q.map (renderName x) ++ [fileName x f], by simp [place]⟩

/-- Names are ordinary for every identifier, if those of the template are: without the placeholder, or the placeholder
alone and the version is an ordinary name. -/
theorem C113_tidy (x : Ctx) (t : Tree) (hid : isIdentifier x.name = true)
    (hbase : replaceFrom x.base x.name 0 placeholder = placeholder)
    (hd : ∀ p, Directory t p → ∀ n ∈ p, (Plain n ∧ '{' ∉ n) ∨ (n = placeholder ∧ Plain x.version))
    (hf : ∀ p f text, Has t p f text → compiled f = false →
      Plain (rewrite f) ∧ Plain (rewrite (replaceFrom x.base x.name 0 f))) : Tidy x t := by
  refine ⟨fun p hp n hn => ?_, fun p f text h hc => ⟨(hf p f text h hc).2, (hf p f text h hc).1⟩⟩
  unfold renderName
  rcases hd p hp n hn with ⟨hpl, hbr⟩ | ⟨rfl, hv⟩
  · have hbr' : '{' ∉ replaceFrom x.base x.name 0 n := by
      intro h
      rcases replaceFrom_mem _ _ _ _ _ h with h | h
      · exact hbr h
      · exact ((identifier_chars x.name hid).2 _ h).2.2 rfl
    have : replaceFrom placeholder x.version 0 (replaceFrom x.base x.name 0 n) = replaceFrom x.base x.name 0 n :=
      replaceFrom_absent '{' _ _ _ hbr'
    rw [this]
    exact plain_replace _ _ _ hid hpl
  · rw [hbase]
    have : replaceFrom placeholder x.version 0 placeholder = x.version ++ [] := rfl
    rw [this, List.append_nil]
    exact hv

example (name : Str) : replaceFrom "project_name".toList name 0 placeholder = placeholder ∧
    replaceFrom "app_name".toList name 0 placeholder = placeholder := ⟨rfl, rfl⟩

/-- A second time: refused, and nothing changes. -/
theorem C113_again (importing : Str → Importing) (x : Ctx) (location : Path) (fs : Fs) (j j' : Job)
    (h : (handle importing x location fs j).2 = .done) :
    handle importing x location (handle importing x location fs j).1 j'
      = ((handle importing x location fs j).1, .refused) := by
  have hi : importing x.name = .missing := by
    unfold handle validate at h
    by_cases hid : isIdentifier x.name = true
    · rw [if_pos hid] at h
      cases hi : importing x.name with
      | missing => rfl
      | found => rw [hi] at h; cases h
      | raises => rw [hi] at h; cases h
    · rw [if_neg hid] at h; cases h
  refine C113_refused importing x location _ j' (Or.inr (Or.inr ⟨hi, ?_⟩))
  have hdir : location ++ [x.name] ∈ (handle importing x location fs j).1.dirs := by
    unfold handle at h ⊢
    cases hv : validate importing x.name with
    | refused => rw [hv] at h; cases h
    | raised => rw [hv] at h; cases h
    | done =>
      rw [hv] at h
      dsimp only at h ⊢
      by_cases he : fs.exists (location ++ [x.name]) = true
      · rw [if_pos he] at h; cases h
      · rw [if_neg he] at h ⊢
        cases hm : fs.mkdirs (location ++ [x.name]) with
        | none => rw [hm] at h; cases h
        | some fs' =>
          dsimp only
          have hself : ∀ p : Path, p ∈ prefixes p := by
            intro p
            induction p with
            | nil => simp [prefixes]
            | cons n rest ih => simp [prefixes, ih]
          have hmem : location ++ [x.name] ∈ fs'.dirs := by
            unfold Fs.mkdirs at hm
            split at hm
            · cases hm
            · injection hm with hm
              subst hm
              exact List.mem_append_right _ (hself _)
          have hk : Kept fs' (fill x (location ++ [x.name]) fs' j).1 := by
            unfold fill
            have h1 := makeDirs_kept x false (location ++ [x.name]) (walk [] j.template) fs'
            rcases hq : makeDirs x false (location ++ [x.name]) fs' (walk [] j.template) with ⟨a, r⟩
            rw [hq] at h1
            cases r with
            | done =>
              dsimp only
              cases j.deployment with
              | none => exact h1
              | some t => exact kept_trans _ _ _ h1 (makeDirs_kept x true _ (walk [] t) a)
            | refused => exact h1
            | raised => exact h1
          exact hk.2 _ hmem
  unfold Fs.exists
  simp [hdir]

example : (handle nothing sample ["home".toList] empty ⟨sampleTree, none⟩).2 = .done := by decide +kernel

/-- Several names: one that is refused does not stop the others. -/
theorem C113_names_partial (importing : Str → Importing) (ctx : Str → Ctx) (location : Path) (j : Job) (fs : Fs)
    (n : Str) (rest : List Str) (h : (handle importing (ctx n) location fs j).2 = .refused) :
    createAll importing ctx location j fs (n :: rest) =
      createAll importing ctx location j (handle importing (ctx n) location fs j).1 rest := by
  rw [createAll]
  rcases hh : handle importing (ctx n) location fs j with ⟨fs', r⟩
  rw [hh] at h
  cases h
  rfl

example : (handle nothing { sample with name := "a-b".toList } ["home".toList] empty ⟨sampleTree, none⟩).2
    = .refused := by decide +kernel

/-- "A bad name is refused": the name is imported, so code of an unrelated module runs, and if it raises another
exception than `ImportError`, the directive ends with it and the other names are not made. -/
theorem C113_import_false (ctx : Str → Ctx) (location : Path) (j : Job) (fs : Fs) (n : Str) (rest : List Str)
    (importing : Str → Importing) (hn : (ctx n).name = n) (hid : isIdentifier n = true)
    (hi : importing n = .raises) :
    createAll importing ctx location j fs (n :: rest) = (fs, .raised) := by
  rw [createAll]
  unfold handle validate
  rw [hn, if_pos hid, hi]

/-- "The name of a project can be imported": keywords are accepted. -/
theorem C113_keyword_false :
    validate nothing "class".toList = .done ∧ validate nothing "import".toList = .done := by decide

/-- "All or nothing": after an exception, what was made stays, and then the name is taken.  Here: an application whose
version is the empty text; its files meet those of the application itself. -/
theorem C113_half_false :
    ∃ (x : Ctx) (t : Tree) (fs : Fs), isIdentifier x.name = true ∧
      (handle nothing x ["home".toList] fs ⟨t, none⟩).2 = .refused ∧
      (handle nothing x ["home".toList] fs ⟨t, none⟩).1.files ≠ fs.files ∧
      handle nothing { x with version := "v1".toList } ["home".toList]
          (handle nothing x ["home".toList] fs ⟨t, none⟩).1 ⟨t, none⟩
        = ((handle nothing x ["home".toList] fs ⟨t, none⟩).1, .refused) := by
  refine ⟨⟨"app_name".toList, "shop".toList, [], [], id⟩,
    .node [] [("__init__.py-tpl".toList, "a".toList)]
      [.node "{{ api_version }}".toList [("__init__.py-tpl".toList, "b".toList)] []], empty,
    by decide, by decide +kernel, by decide +kernel, ?_⟩
  exact C113_refused _ _ _ _ _ (Or.inr (Or.inr ⟨rfl, by decide +kernel⟩))

/-- "All that is made is below the directory of the application": not if the version goes up. -/
theorem C113_version_false :
    ∃ (x : Ctx) (t : Tree) (p : Path), isIdentifier x.name = true ∧
      (handle nothing x ["home".toList] empty ⟨t, none⟩).2 = .done ∧
      (aget (handle nothing x ["home".toList] empty ⟨t, none⟩).1.files p).isSome = true ∧
      p = ["home".toList, "other".toList, "urls.py".toList] :=
  ⟨⟨"app_name".toList, "shop".toList, "../other".toList, [], id⟩,
    .node [] [] [.node "{{ api_version }}".toList [("urls.py-tpl".toList, [])] []], _, by decide, by decide +kernel,
    by decide +kernel, rfl⟩

/-- "Files are rendered": a file whose name has the base name in it is copied as it is, because the template is looked
up under the old name. -/
theorem C113_unrendered_false :
    ∃ (t : Tree), Has t [] "project_name.conf.e-tpl".toList "text".toList ∧
      (handle nothing sample ["home".toList] empty ⟨t, none⟩).2 = .done ∧
      aget (handle nothing sample ["home".toList] empty ⟨t, none⟩).1.files
        ["home".toList, "shop".toList, "shop.conf".toList] = some "text".toList ∧
      sample.render "text".toList = "text!".toList :=
  ⟨.node [] [("project_name.conf.e-tpl".toList, "text".toList)] [], Has.here _ _ _ _ _ (by simp),
    by decide +kernel, by decide +kernel, by decide +kernel⟩

/-- A key which has none of the five characters is written as it is. -/
theorem C113_secret_partial (key : Str) (h : ∀ c ∈ key, c ∉ "&<>\"'".toList) : escape key = key := by
  induction key with
  | nil => rfl
  | cons c rest ih =>
    have hc := h c (by simp)
    have hne : ∀ d, d ∈ "&<>\"'".toList → c ≠ d := fun d hd e => hc (e ▸ hd)
    have : escapeChar c = [c] := by
      unfold escapeChar
      rw [if_neg (hne '&' (by decide)), if_neg (hne '<' (by decide)), if_neg (hne '>' (by decide)),
        if_neg (hne '"' (by decide)), if_neg (hne '\'' (by decide))]
    unfold escape at ih ⊢
    rw [List.flatMap_cons, this, ih fun d hd => h d (by simp [hd])]
    rfl

/-- The five characters are written as HTML has them, character by character. -/
theorem C113_escape (a b : Str) : escape (a ++ b) = escape a ++ escape b ∧
    escape "&".toList = "&amp;".toList ∧ escape "<".toList = "&lt;".toList ∧ escape ">".toList = "&gt;".toList ∧
    escape "\"".toList = "&#34;".toList ∧ escape "'".toList = "&#39;".toList :=
  ⟨List.flatMap_append, rfl, rfl, rfl, rfl, rfl⟩

/-- The directories that are left out: those whose name begins with a full stop, and `__pycache__`. -/
theorem C113_hidden (n : Str) : hidden n = true ↔ (∃ r, n = '.' :: r) ∨ n = "__pycache__".toList := by
  unfold hidden
  rw [Bool.or_eq_true, decide_eq_true_iff]
  refine or_congr ?_ Iff.rfl
  cases n with
  | nil => constructor
           · intro h; cases h
           · rintro ⟨r, h⟩; cases h
  | cons c r =>
    constructor
    · intro h
      refine ⟨r, ?_⟩
      have : '.' = c := by simpa [startsWith] using h
      rw [this]
    · rintro ⟨r', h⟩
      cases h
      simp [startsWith]

/-- "The settings have the secret key that was made": the text is escaped as HTML, and a key may have an ampersand. -/
theorem C113_secret_false :
    ∃ key : Str, (∀ c ∈ key, c ∈ keyChars) ∧ escape key ≠ key := ⟨"a&b".toList, by decide, by decide⟩

/-- "A project with Edgy has the settings `configs.edgy` that its task file names": no file gets that name. -/
theorem C113_edgy_false : "edgy.py".toList ∉ edgyFiles.map rewrite ∧ "settings.py".toList ∈ edgyFiles.map rewrite := by
  decide +kernel

/-- Which template: with Edgy that one, else the simple one without structure; a deployment has one only. -/
theorem C113_template (structure' : Bool) :
    templateName "project".toList true structure' = "project_template_edgy".toList ∧
    templateName "project".toList false true = "project_template".toList ∧
    templateName "project".toList false false = "project_template_simple".toList ∧
    templateName "app".toList false true = "app_template".toList ∧
    templateName "deployment".toList false structure' = "deployment_template".toList := by
  cases structure' <;> decide

/-- A deployment: the files of the template below the folder of the deployment. -/
theorem C113_deployment_partial (x : Ctx) (location : Path) (fs : Fs) (t : Tree) (ht : Tidy x t)
    (hfolder : Plain x.folder) (h : (createDeployment x location fs t).2 = .done) (p : Path) (f text : Str)
    (hf : Has t p f text) (hc : compiled f = false) :
    ∃ out, aget (createDeployment x location fs t).1.files (place x (location ++ [x.folder]) p f) = some out ∧
      (replaceFrom x.base x.name 0 f = f → out = x.render text) := by
  have htop : deploymentDir x location = location ++ [x.folder] := by
    unfold deploymentDir
    rw [if_neg hfolder.2.1]
    exact target_plain location [x.folder] (by simpa using hfolder)
  unfold createDeployment at h ⊢
  rw [htop] at h ⊢
  by_cases he : fs.exists (location ++ [x.folder]) = true
  · rw [if_pos he] at h; cases h
  · rw [if_neg he] at h ⊢
    cases hm : fs.mkdirs (location ++ [x.folder]) with
    | none => rw [hm] at h; cases h
    | some fs' =>
      rw [hm] at h
      dsimp only at h ⊢
      obtain ⟨d, hd, hp, hfd⟩ := has_walk t p f text hf []
      have hdir : ∀ n ∈ p, Plain (renderName x n) := by
        obtain ⟨q, hq, hqd, _⟩ := walk_has [] t d hd
        have : p = q := by rw [hp] at hq; simpa using hq
        rw [this]
        exact ht.1 q hqd
      obtain ⟨out, ho, hr⟩ := makeDirs_done x false (location ++ [x.folder]) (walk [] t) fs' h d hd (f, text) hfd hc
      refine ⟨out, ?_, hr⟩
      rw [← goes x (location ++ [x.folder]) p f hdir (ht.2 p f text hf hc).1]
      rw [hp] at ho
      exact ho

example : (createDeployment sample ["home".toList] empty
      (.node [] [] [.node "docker".toList [("Dockerfile.e-tpl".toList, "d".toList)] []])).1.files
    = [(["home".toList, "deployment".toList, "docker".toList, "Dockerfile".toList], "d!".toList)] := by decide +kernel

/-- "NAME is the project in which the deployment is placed": the name is not looked at, and the files are not in that
directory. -/
theorem C113_project_false :
    ∃ t : Tree, (∀ name, deploymentDir { sample with name := name } ["home".toList]
        = ["home".toList, "deployment".toList]) ∧
      isIdentifier "not a name".toList = false ∧
      (createDeployment { sample with name := "not a name".toList } ["home".toList] empty t).2 = .done ∧
      (createDeployment { sample with name := "not a name".toList } ["home".toList] empty t).1.files
        = [(["home".toList, "deployment".toList, "Dockerfile".toList], "d!".toList)] :=
  ⟨.node [] [("Dockerfile.e-tpl".toList, "d".toList)] [], fun _ => rfl, by decide, by decide +kernel,
    by decide +kernel⟩

end Verif.Scaffold.Props
