import Verif.Lemmas.Gather
import Verif.Props.FromText
import Verif.Props.Built

/-!
# The texts of the articles of a law built from text (C94)
-/

namespace JLaw

open Spec

variable {L : Lvl}

/-- C94. The articles that src/utils.rs finds in a law built from text, and the texts it finds in
them, can be read off the lines: the articles are the lines with the heading of an article, in their
order, and the texts of an article are the lines with the heading of the article, of a paragraph or
of an item, each followed directly by the plain lines after it. -/
theorem C94_articles (E : Ext) (R : Render L) (fuel : Nat) (title text : List Char) (b : LawBody L)
    (h : parseBody E fuel title text = .ok (some b)) :
    ∃ ls, readLines E text = .ok ls ∧
      ((articleListFromMainProvision b.main_provision).1.map fun a =>
        (a.num, textInfoListFromParagraph R a.paragraph)) = articlesOfLines ls := by
  obtain ⟨ls, hls, hd⟩ := C52_document E fuel title text b h
  refine ⟨ls, hls, ?_⟩
  have h1 := document_gather R (C72_shape E fuel title text b h)
  rw [hd, gather_meaning R ls start [] (fun _ _ => rfl) (fun _ _ h => by cases h)] at h1
  rw [articlesOfLines, h1]
  simp [articleTexts, Function.comp_def]

/-- C94. So can the text of each article: the texts with a line feed between each two. -/
theorem C94_texts (E : Ext) (R : Render L) (fuel : Nat) (title text : List Char) (b : LawBody L)
    (h : parseBody E fuel title text = .ok (some b)) :
    ∃ ls, readLines E text = .ok ls ∧
      (articleListFromMainProvision b.main_provision).1.map (textFromArticle R) =
        (articlesOfLines ls).map fun a => String.intercalate "\n" (a.2.map Prod.snd) := by
  obtain ⟨ls, hls, hd⟩ := C94_articles E R fuel title text b h
  refine ⟨ls, hls, ?_⟩
  rw [← hd, List.map_map]
  rfl

/-! ## Nothing is lost -/

/-- A line says something in an article, or starts one. -/
def TextLine.said : TextLine → Option (List Char)
  | .article _ t | .paragraph _ t | .item _ t | .text t => some t
  | _ => none

/-- A line has a heading of an article, a paragraph or an item. -/
def TextLine.starts : TextLine → Bool
  | .article _ _ | .paragraph _ _ | .item _ _ => true
  | _ => false

/-- A line is no heading of an article. -/
def TextLine.noArticle : TextLine → Bool
  | .article _ _ => false
  | _ => true

/-- All texts, in their order. -/
def Spec.Gathered.texts (s : Gathered) : List (TextIndex × String) :=
  s.reverse.flatMap fun a => a.2.reverse

theorem texts_cons (n : ArticleNumber) (es : List (TextIndex × String)) (r : Gathered) :
    Gathered.texts ((n, es) :: r) = Gathered.texts r ++ es.reverse := by
  simp [Gathered.texts]

/-- The characters of texts. -/
def allChars (l : List (TextIndex × String)) : List Char := l.flatMap fun e => e.2.toList

theorem allChars_append (l r : List (TextIndex × String)) :
    allChars (l ++ r) = allChars l ++ allChars r := List.flatMap_append

/-- What is said in lines. -/
def saidIn (ls : List TextLine) : List Char := (ls.filterMap TextLine.said).flatten

theorem gather_in (ls : List TextLine) (q : State) (s : Gathered) (hq : ∀ n, q.place ≠ .preamble n)
    (h : HasText q s) :
    allChars (gather q s ls).texts = allChars s.texts ++ saidIn (used q ls) ∧
    (gather q s ls).texts.length = s.texts.length + ((used q ls).filter TextLine.starts).length := by
  induction ls generalizing q s with
  | nil => simp [gather, used, saidIn]
  | cons l r ih =>
    rw [gather, used]
    cases hn : next q l with
    | none => simp [saidIn]
    | some q' =>
      simp only
      have key : (∀ n, q'.place ≠ .preamble n) ∧ HasText q' (gatherLine q' s l) ∧
          allChars (gatherLine q' s l).texts = allChars s.texts ++ saidIn [l] ∧
          (gatherLine q' s l).texts.length = s.texts.length + ([l].filter TextLine.starts).length := by
        cases l with
        | caption t => cases hn; exact ⟨by simp, fun _ _ h => (by cases h), by simp [gatherLine, saidIn, TextLine.said], rfl⟩
        | part n t => cases hn; exact ⟨by simp, fun _ _ h => (by cases h), by simp [gatherLine, saidIn, TextLine.said], rfl⟩
        | chapter n t => cases hn; exact ⟨by simp, fun _ _ h => (by cases h), by simp [gatherLine, saidIn, TextLine.said], rfl⟩
        | section_ n t => cases hn; exact ⟨by simp, fun _ _ h => (by cases h), by simp [gatherLine, saidIn, TextLine.said], rfl⟩
        | subsection n t =>
          simp only [next] at hn
          split at hn <;> cases hn
          exact ⟨by simp, fun _ _ h => (by cases h), by simp [gatherLine, saidIn, TextLine.said], rfl⟩
        | division n t =>
          simp only [next] at hn
          split at hn <;> cases hn
          exact ⟨by simp, fun _ _ h => (by cases h), by simp [gatherLine, saidIn, TextLine.said], rfl⟩
        | article n t =>
          cases hn
          refine ⟨by simp, fun _ _ _ => ⟨_, _, _, _, rfl⟩, ?_, ?_⟩
          · simp [gatherLine, texts_cons, allChars, saidIn, TextLine.said]
          · simp [gatherLine, texts_cons, TextLine.starts, List.filter_cons]
        | paragraph n t =>
          simp only [next] at hn
          split at hn <;> cases hn
          rename_i i k hq
          obtain ⟨a, e, es, u, rfl⟩ := h _ _ hq
          refine ⟨by simp, fun _ _ _ => ⟨_, _, _, _, rfl⟩, ?_, ?_⟩
          · simp [gatherLine, Gathered.open_, texts_cons, allChars, saidIn, TextLine.said]
          · simp [gatherLine, Gathered.open_, texts_cons, TextLine.starts, List.filter_cons]; omega
        | item n t =>
          simp only [next] at hn
          split at hn <;> cases hn
          rename_i i k hq
          obtain ⟨a, e, es, u, rfl⟩ := h _ _ hq
          refine ⟨by simp, fun _ _ _ => ⟨_, _, _, _, rfl⟩, ?_, ?_⟩
          · simp [gatherLine, Gathered.openItem, texts_cons, allChars, saidIn, TextLine.said]
          · simp [gatherLine, Gathered.openItem, texts_cons, TextLine.starts, List.filter_cons]; omega
        | text t =>
          simp only [next] at hn
          split at hn <;> cases hn
          · rename_i k hp
            exact absurd hp (hq k)
          · rename_i i k hq
            obtain ⟨a, e, es, u, rfl⟩ := h _ _ hq
            refine ⟨by simp, fun _ _ _ => ⟨_, _, _, _, rfl⟩, ?_, ?_⟩
            · simp [gatherLine, Gathered.more, texts_cons, allChars, saidIn, TextLine.said]
            · simp [gatherLine, Gathered.more, texts_cons, TextLine.starts]
        | suppl n => cases hn
      obtain ⟨k1, k2, k3, k4⟩ := key
      obtain ⟨h1, h2⟩ := ih q' (gatherLine q' s l) k1 k2
      refine ⟨?_, ?_⟩
      · rw [h1, k3, List.append_assoc]
        congr 1
        rw [← List.singleton_append (l := used q' r), saidIn, saidIn, saidIn, List.filterMap_append,
          List.flatten_append]
      · rw [h2, k4, ← List.singleton_append (l := used q' r), List.filter_append,
          List.length_append, Nat.add_assoc]

theorem gather_before (ls : List TextLine) (q : State) (h : HasText q []) :
    allChars (gather q [] ls).texts = saidIn ((used q ls).dropWhile TextLine.noArticle) ∧
    (gather q [] ls).texts.length = ((used q ls).filter TextLine.starts).length := by
  have hq : ∀ i k, q.place ≠ .article i k := by
    intro i k hp
    obtain ⟨_, _, _, _, h⟩ := h i k hp
    cases h
  induction ls generalizing q with
  | nil => exact ⟨rfl, rfl⟩
  | cons l r ih =>
    rw [gather, used]
    cases hn : next q l with
    | none => exact ⟨rfl, rfl⟩
    | some q' =>
      simp only
      have key : (∃ n t, l = .article n t) ∨ l.noArticle = true ∧ l.starts = false ∧
          gatherLine q' [] l = [] ∧ ∀ i k, q'.place ≠ .article i k := by
        cases l with
        | caption t => cases hn; exact .inr ⟨rfl, rfl, rfl, by simp⟩
        | part n t => cases hn; exact .inr ⟨rfl, rfl, rfl, by simp⟩
        | chapter n t => cases hn; exact .inr ⟨rfl, rfl, rfl, by simp⟩
        | section_ n t => cases hn; exact .inr ⟨rfl, rfl, rfl, by simp⟩
        | subsection n t =>
          simp only [next] at hn
          split at hn <;> cases hn
          exact .inr ⟨rfl, rfl, rfl, by simp⟩
        | division n t =>
          simp only [next] at hn
          split at hn <;> cases hn
          exact .inr ⟨rfl, rfl, rfl, by simp⟩
        | article n t => exact .inl ⟨n, t, rfl⟩
        | paragraph n t =>
          simp only [next] at hn
          cases hn
        | item n t =>
          simp only [next] at hn
          cases hn
        | text t =>
          simp only [next] at hn
          split at hn <;> cases hn
          · exact .inr ⟨rfl, rfl, rfl, by simp⟩
          · rename_i i k hp
            exact absurd hp (hq i k)
        | suppl n => cases hn
      rcases key with ⟨n, t, rfl⟩ | ⟨k1, k2, k3, k4⟩
      · cases hn
        have h1 := gather_in r ⟨q.path, .article [] 1⟩ (gatherLine ⟨q.path, .article [] 1⟩ [] (.article n t))
          (by simp) (fun _ _ _ => ⟨_, _, _, _, rfl⟩)
        have h2 : (gatherLine ⟨q.path, .article [] 1⟩ [] (.article n t)).texts =
            [(⟨⟨1, [], []⟩, []⟩, String.ofList t)] := rfl
        rw [h1.1, h1.2, h2]
        refine ⟨?_, ?_⟩
        · simp [TextLine.noArticle, allChars, saidIn, TextLine.said]
        · simp [TextLine.starts, List.filter_cons]; omega
      · rw [k3, List.dropWhile_cons_of_pos k1, List.filter_cons_of_neg (by simp [k2])]
        exact ih q' (fun i k hp => absurd hp (k4 i k)) k4

/-- C94. Nothing that is said in a line that is used is lost from the first article on, and nothing
is added or moved: the texts of the articles, one after the other, are these lines without their
headings, one after the other. There is one text for each line with the heading of an article, a
paragraph or an item; line breaks before other lines are lost. -/
theorem C94_nothing_lost (E : Ext) (R : Render L) (fuel : Nat) (title text : List Char) (b : LawBody L)
    (h : parseBody E fuel title text = .ok (some b)) :
    ∃ ls, readLines E text = .ok ls ∧
      let texts := (articleListFromMainProvision b.main_provision).1.flatMap fun a =>
        textInfoListFromParagraph R a.paragraph
      texts.flatMap (fun e => e.2.toList) = saidIn ((used start ls).dropWhile TextLine.noArticle) ∧
      texts.length = ((used start ls).filter TextLine.starts).length := by
  obtain ⟨ls, hls, hd⟩ := C94_articles E R fuel title text b h
  refine ⟨ls, hls, ?_⟩
  have h1 : ((articleListFromMainProvision b.main_provision).1.flatMap fun a =>
      textInfoListFromParagraph R a.paragraph) = (gather start [] ls).texts := by
    rw [articlesOfLines] at hd
    have := congrArg (List.flatMap Prod.snd) hd
    rw [List.flatMap_map] at this
    rw [this, Gathered.texts, ← List.map_reverse, List.flatMap_map]
  have := gather_before ls start (fun _ _ h => by cases h)
  rw [← h1] at this
  exact this

/-! ## Examples -/

/-- A text with a preamble, a heading, a caption, paragraphs and items of two levels, and plain lines
in between. -/
def gatherText : List Char :=
  "前文\n第一章　総則\n（目的）\n第一条　甲\n乙\n２　丙\n一　丁\nイ　戊\nロ　己\n続き\n二　庚\n第二条　辛".toList

/-- The articles and texts found in the law built from it. -/
example : (match parseBody (L := lvl 1) kanjiExt 20 "法".toList gatherText with
    | .ok (some b) => (articleListFromMainProvision b.main_provision).1.map fun a =>
        (a.num.base_number, (textInfoListFromParagraph (render 1) a.paragraph).map fun e =>
          (e.1.paragraph.base_number, e.1.items.map (Option.map fun i => i.base_number), e.2))
    | _ => []) =
    [(1, [(1, [], "甲乙"), (2, [], "丙"), (2, [some 1], "丁"), (2, [some 1, some 1], "戊"),
        (2, [some 1, some 2], "己続き"), (2, [some 2], "庚")]),
      (2, [(1, [], "辛")])] := by decide +kernel

/-- The same read off the lines. -/
example : (match readLines kanjiExt gatherText with
    | .ok ls => (articlesOfLines ls).map fun a =>
        (a.1.base_number, a.2.map fun e =>
          (e.1.paragraph.base_number, e.1.items.map (Option.map fun i => i.base_number), e.2))
    | _ => []) =
    [(1, [(1, [], "甲乙"), (2, [], "丙"), (2, [some 1], "丁"), (2, [some 1, some 1], "戊"),
        (2, [some 1, some 2], "己続き"), (2, [some 2], "庚")]),
      (2, [(1, [], "辛")])] := by decide +kernel

end JLaw
