import Verif.MailText.Lemmas
import Verif.Mail.Props

/-!
# Mails from templates (C121)
-/

namespace Verif.MailText.Props

open Verif Verif.MailText Verif.MailText.Spec

/-- A welcome mail. -/
def welcome : List Node :=
  [.tag "h1".toList, .text "Welcome, Ann".toList, .tag "/h1".toList, .text "\n  ".toList, .tag "p".toList,
    .text "First".toList, .tag "BR /".toList, .text "second ".toList, .tag "b".toList, .text "line".toList,
    .tag "/b".toList, .tag "/p".toList, .tag "p class=x".toList, .text "Bye".toList, .tag "/ P".toList,
    .text "\n".toList]

example : page welcome =
    "<h1>Welcome, Ann</h1>\n  <p>First<BR />second <b>line</b></p><p class=x>Bye</ P>\n".toList := by decide +kernel

/-- **C121** (the text; missing: the blank lines between paragraphs, see `C121_paragraphs_false`, and references to
characters, see `C121_references_false`).  The plain text of a page is the texts of the page in their order, with a
line break for `<br>` and the end of a paragraph, all lines without white space at their ends and without empty
lines. -/
theorem C121_text_partial (doc : List Node) (h : ∀ n ∈ doc, n.Ok) : htmlToText (page doc) = tidy (shown ['\n'] doc) :=
    by
  rw [htmlToText_eq, untag_page doc h]
  unfold tidy
  have := lines_par doc []
  rw [List.nil_append, List.nil_append] at this
  rw [this]

example : (∀ n ∈ welcome, n.Ok) ∧ htmlToText (page welcome) = "Welcome, Ann\nFirst\nsecond line\nBye".toList := by
  decide +kernel

/-- **C121** (tags): no tag is left in the plain text, whatever the page is. -/
theorem C121_no_tags (html : Str) : ¬ HasTag (htmlToText html) := htmlToText_noTag html

example : HasTag "a<<b>>c".toList ∧ htmlToText "a<<b>>c".toList = "a>c".toList :=
  ⟨⟨"a".toList, "<b".toList, ">c".toList, by decide, by decide, by decide⟩, by decide +kernel⟩

/-- **C121** (white space): whatever the page is, no line of the plain text is empty or has white space at its
ends. -/
theorem C121_lines (html : Str) : htmlToText html = [] ∨
    ∀ l ∈ splitOn '\n' (htmlToText html), l ≠ [] ∧ strip isSpace l = l := by
  rw [htmlToText_eq]
  by_cases h : lines (untag html) = []
  · left; unfold tidy; rw [h]; rfl
  · right
    intro l hl
    unfold tidy at hl
    rw [splitOn_joinWith '\n' _ h fun p hp => (lines_no_feed _ p hp).2.1] at hl
    exact ⟨(lines_no_feed _ l hl).1, (lines_no_feed _ l hl).2.2⟩

example : htmlToText " <p> a </p>\r\n\n\n <p>b</p> ".toList = "a\nb".toList := by decide +kernel

/-- **C121** (the break between paragraphs is refuted): no plain text ever has an empty line, so that paragraphs are
not set apart although the end of a paragraph is first replaced by two line feeds. -/
theorem C121_paragraphs_false (html a b : Str) : htmlToText html ≠ a ++ '\n' :: '\n' :: b := by
  intro e
  rcases C121_lines html with h | h
  · rw [h] at e
    have := congrArg List.length e
    simp at this
  · have hs : splitOn '\n' (htmlToText html) = splitOn '\n' a ++ ([] :: splitOn '\n' b) := by
      rw [e, splitOn_append]
      rfl
    exact (h [] (by rw [hs]; simp)).1 rfl

example : htmlToText "<p>One</p><p>Two</p>".toList = "One\nTwo".toList := by decide +kernel

/-- **C121** (references to characters are refuted): what a template escapes, such as `&` in a name, is shown in its
escaped form. -/
theorem C121_references_false : ¬ ∀ doc : List Node, (∀ n ∈ doc, n.Ok) →
    htmlToText (page doc) = unescape (tidy (shown ['\n'] doc)) := by
  intro h
  have := h [.text "Smith &amp; Co".toList] (by decide)
  exact absurd this (by decide +kernel)

/-- **C121** (normalized white space is refuted): white space within a line stays as it is. -/
theorem C121_spaces_false (a b w : Str) (c d : Char) (ha : '\n' ∉ a ∧ '<' ∉ a) (hb : '\n' ∉ b ∧ '<' ∉ b)
    (hw : ∀ x ∈ w, isSpace x = true ∧ x ≠ '\n') (hc : isSpace c = false ∧ c ≠ '<')
    (hd : isSpace d = false ∧ d ≠ '<') :
    htmlToText (c :: a ++ w ++ b ++ [d]) = c :: a ++ w ++ b ++ [d] := by
  have hok : ∀ n ∈ [Node.text (c :: a ++ w ++ b ++ [d])], n.Ok := by
    intro n hn
    rw [List.mem_singleton] at hn
    subst hn
    show '<' ∉ _
    simp only [List.mem_append, List.mem_cons, List.not_mem_nil, or_false, not_or]
    refine ⟨⟨⟨⟨fun e => hc.2 e.symm, ha.2⟩, fun h => ?_⟩, hb.2⟩, fun e => hd.2 e.symm⟩
    exact absurd (hw _ h).1 (by decide)
  have hf : '\n' ∉ c :: a ++ w ++ b ++ [d] := by
    simp only [List.mem_append, List.mem_cons, List.not_mem_nil, or_false, not_or]
    refine ⟨⟨⟨⟨?_, ha.1⟩, fun h => (hw _ h).2 rfl⟩, hb.1⟩, ?_⟩
    · rintro rfl; exact absurd hc.1 (by decide)
    · rintro rfl; exact absurd hd.1 (by decide)
  have h1 := C121_text_partial _ hok
  have hp : ∀ s, page [Node.text s] = s := fun s => by simp [page, Node.written]
  have hsh : ∀ s, shown ['\n'] [Node.text s] = s := fun s => by simp [shown, Node.shown]
  rw [hp, hsh] at h1
  have hs := strip_inner [] (c :: a ++ w ++ b) d [] (fun _ h => nomatch h) (fun _ h => nomatch h)
    (by
      intro x xs e
      have e' : c = x := by simpa using congrArg List.head? e
      rw [← e']
      exact hc.1) hd.1
  rw [List.nil_append, List.append_nil] at hs
  rw [h1]
  unfold tidy
  rw [lines_last _ hf (by rw [hs]; simp), hs]
  rfl

example : htmlToText "a \tb".toList = "a \tb".toList := by decide +kernel

/-! ## The message -/

theorem pair_fallback {text : Option Str} {render : Str → Option Str} (h' t h : Str) (hx : text = none ∨ text = some
    []) :
    some (htmlToText h', h') = some (t, h) ↔ some h' = some h ∧
      ((∃ name, text = some name ∧ name ≠ [] ∧ render name = some t) ∨
       ((text = none ∨ text = some []) ∧ t = htmlToText h)) := by
  constructor
  · intro e
    obtain ⟨e1, e2⟩ := Prod.mk.inj (Option.some.inj e)
    exact ⟨by rw [e2], .inr ⟨hx, by rw [← e1, e2]⟩⟩
  · rintro ⟨e, h2 | ⟨_, h2⟩⟩
    · obtain ⟨n, hn, hne, _⟩ := h2
      rcases hx with hx | hx
      · rw [hx] at hn; cases hn
      · rw [hx] at hn; injection hn with hn; exact absurd hn.symm hne
    · injection e with e
      rw [h2, e]

/-- **C121** (the two bodies): the HTML is the rendered template; the text is the rendered text template if one is
named, and else the plain text of the HTML. -/
theorem C121_pair (render : Str → Option Str) (html : Str) (text : Option Str) (t h : Str) :
    renderPair render html text = some (t, h) ↔ render html = some h ∧
      ((∃ name, text = some name ∧ name ≠ [] ∧ render name = some t) ∨
       ((text = none ∨ text = some []) ∧ t = htmlToText h)) := by
  unfold renderPair
  cases hr : render html with
  | none => simp
  | some h' =>
    cases text with
    | none => exact pair_fallback h' t h (.inl rfl)
    | some name =>
      cases name with
      | nil => exact pair_fallback h' t h (.inr rfl)
      | cons c name =>
        cases ht : render (c :: name) with
        | none => simp [ht]
        | some t' => simp [ht, and_comm]

example : renderPair (fun n => if n = "w.html".toList then some "<p>Hi</p>".toList else none) "w.html".toList none =
    some ("Hi".toList, "<p>Hi</p>".toList) := by decide +kernel

/-- **C121** (sending): the backend is given one message with the two bodies and everything else as it was asked for,
if there are templates, a backend and a recipient, the templates render and some body or attachment is not empty. -/
theorem C121_given (templates : Option (Str → Option Str)) (backend : Bool) (html : Str) (text : Option Str)
    (m out : Mail.Message) :
    sendTemplate templates backend html text m = .given out ↔
      backend = true ∧ ∃ render t h, templates = some render ∧ renderPair render html text = some (t, h) ∧
        out = { m with text := some t, html := some h, alternatives := [] } ∧ Mail.Spec.Valid out := by
  have hacc : ∀ x : Mail.Message, Mail.accepted x = true ↔ Mail.Spec.Valid x := by
    intro x
    have := (Mail.C79_refuses x).1
    unfold Mail.mailerSend at this
    rw [← this]
    cases Mail.accepted x <;> simp
  cases templates with
  | none => exact ⟨(fun h => nomatch h), (fun ⟨_, _, _, _, h, _⟩ => nomatch h)⟩
  | some render =>
    cases hp : renderPair render html text with
    | none =>
      rw [sendTemplate_failed render backend html text m hp]
      refine ⟨(fun h => nomatch h), ?_⟩
      rintro ⟨_, r, t, h, hr, hp', _⟩
      injection hr with hr
      subst hr
      rw [hp] at hp'
      cases hp'
    | some p =>
      obtain ⟨t, h⟩ := p
      rw [sendTemplate_rendered render backend html text m t h hp, send_given]
      constructor
      · rintro ⟨hb, ha, ho⟩
        exact ⟨hb, render, t, h, rfl, hp, ho, by rw [ho]; exact (hacc _).mp ha⟩
      · rintro ⟨hb, r, t', h', hr, hp', ho, hv⟩
        injection hr with hr
        subst hr
        rw [hp] at hp'
        injection hp' with hp'
        injection hp' with h1 h2
        subst h1 h2
        rw [ho] at hv
        exact ⟨hb, (hacc _).mpr hv, ho⟩

/-- The templates of the example: one that greets. -/
def exampleTemplates : Str → Option Str := fun n => if n = "w.html".toList then some "<p>Hi</p>".toList else none

example : sendTemplate (some exampleTemplates) true "w.html".toList none
    { subject := "Hello".toList, to := ["ann@x".toList], replyTo := ["help@x".toList] } =
    .given { subject := "Hello".toList, to := ["ann@x".toList], replyTo := ["help@x".toList],
             text := some "Hi".toList, html := some "<p>Hi</p>".toList } := by decide +kernel

/-- **C121** (refusals): without a directory of templates, and without a backend, the mailer says so; a template that
does not render is an exception. -/
theorem C121_refused (templates : Option (Str → Option Str)) (backend : Bool) (html : Str) (text : Option Str)
    (m : Mail.Message) :
    (templates = none → sendTemplate templates backend html text m = .notConfigured) ∧
    (∀ render, templates = some render →
      (sendTemplate templates backend html text m = .rendering ↔ ∀ t h, renderPair render html text ≠ some (t, h)) ∧
      (backend = false → ∀ t h, renderPair render html text = some (t, h) →
        sendTemplate templates backend html text m = .notConfigured)) := by
  refine ⟨?_, ?_⟩
  · rintro rfl; rfl
  · rintro render rfl
    cases hp : renderPair render html text with
    | none =>
      rw [sendTemplate_failed render backend html text m hp]
      exact ⟨⟨(fun _ _ _ e => nomatch e), fun _ => rfl⟩, (fun _ t h e => nomatch e)⟩
    | some p =>
      obtain ⟨t, h⟩ := p
      rw [sendTemplate_rendered render backend html text m t h hp]
      exact ⟨⟨fun hs => absurd hs (send_not_rendering _ _), fun hn => absurd rfl (hn t h)⟩,
        fun hb _ _ _ => by subst hb; rfl⟩

example : sendTemplate none true [] none { subject := [], to := [] } = .notConfigured ∧
    sendTemplate (some exampleTemplates) true "x.html".toList none { subject := [], to := [] } = .rendering ∧
    sendTemplate (some exampleTemplates) false "w.html".toList none { subject := [], to := [] } = .notConfigured := by
  decide +kernel

/-- **C121** (delivery is refuted): a message from a template with both bodies is never built, so that the backends for
SMTP and for files end in an exception. -/
theorem C121_delivered_false (env : Mail.Env) (render : Str → Option Str) (html : Str) (text : Option Str)
    (m out : Mail.Message) (t h : Str) (hp : renderPair render html text = some (t, h)) (ht : t ≠ []) (hh : h ≠ [])
    (hs : sendTemplate (some render) true html text m = .given out) (b : Mail.Built) : Mail.build env out ≠ .ok b := by
  obtain ⟨_, r, t', h', hr, hp', ho, _⟩ := (C121_given _ _ _ _ _ _).mp hs
  injection hr with hr
  subst hr
  rw [hp] at hp'
  injection hp' with hp'
  injection hp' with h1 h2
  subst h1 h2
  refine Mail.C79_both_false env out b ?_
  rw [ho]
  exact ⟨⟨t, rfl, ht⟩, ⟨h, rfl, hh⟩⟩

/-- The message of the example. -/
def exampleMail : Mail.Message :=
  { subject := "Hello".toList, to := ["ann@x".toList], text := some "Hi".toList, html := some "<p>Hi</p>".toList }

example : sendTemplate (some exampleTemplates) true "w.html".toList none
      { subject := "Hello".toList, to := ["ann@x".toList] } = .given exampleMail ∧
    (match Mail.build Mail.exampleEnv exampleMail with | .error e => some e | .ok _ => none) = some .type := by
  decide +kernel

end Verif.MailText.Props
