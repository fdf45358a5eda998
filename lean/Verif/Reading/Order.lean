import Verif.Lemmas.Xml
import Verif.Spec.Order

/-! # Document order: the loops of the readers -/

namespace JLaw

variable {σ α β : Type} {L : Lvl}

@[simp] theorem elems_nil : elems [] = [] := rfl
@[simp] theorem elems_element (n : String) (a : Attrs) (d c : List XMLNode) :
    elems (.element n a d :: c) = ⟨n, a, d⟩ :: elems c := rfl
@[simp] theorem elems_text (s : String) (c : List XMLNode) : elems (.text s :: c) = elems c := rfl
@[simp] theorem elems_comment (s : String) (c : List XMLNode) :
    elems (.comment s :: c) = elems c := rfl
@[simp] theorem elems_cdata (s : String) (c : List XMLNode) :
    elems (.cdata s :: c) = elems c := rfl
@[simp] theorem elems_pi (s : String) (t : Option String) (c : List XMLNode) :
    elems (.processingInstruction s t :: c) = elems c := rfl

/-- A loop over elements that pushes on a list, with an invariant. -/
theorem forElems_sel {step : σ → Element → Res σ} (get : σ → List β) (inv : σ → Prop)
    (sel : Element → List α) {R : α → β → Prop}
    (hstep : ∀ s x s', inv s → step s x = .ok s' → inv s' ∧
      ∃ l, List.Forall₂ R (sel x) l ∧ get s' = get s ++ l)
    {c : List XMLNode} {s s' : σ} (hi : inv s) (h : forElems step s c = .ok s') :
    inv s' ∧ ∃ l, List.Forall₂ R ((elems c).flatMap sel) l ∧ get s' = get s ++ l := by
  unfold forElems at h
  induction c generalizing s with
  | nil => cases h; exact ⟨hi, [], .nil, by simp⟩
  | cons x c ih =>
    rw [foldRes_cons] at h
    obtain ⟨t, ht, hr⟩ := Res.bind_eq_ok.1 h
    clear h
    cases x with
    | element n a d =>
      obtain ⟨hi', l, hl, hg⟩ := hstep s ⟨n, a, d⟩ t hi ht
      obtain ⟨hi'', l', hl', hg'⟩ := ih hi' hr
      refine ⟨hi'', l ++ l', ?_, by rw [hg', hg, List.append_assoc]⟩
      rw [elems_element, List.flatMap_cons]
      exact List.rel_append hl hl'
    | _ =>
      cases ht
      exact ih hi hr

theorem named_eq_flatMap (tags : List String) (c : List XMLNode) :
    named tags c = (elems c).flatMap fun x => if x.name ∈ tags then [x] else [] := by
  unfold named
  induction elems c with
  | nil => rfl
  | cons x l ih =>
    by_cases h : x.name ∈ tags
    · rw [List.filter_cons_of_pos (by simpa using h), List.flatMap_cons, if_pos h, ih]; rfl
    · rw [List.filter_cons_of_neg (by simpa using h), List.flatMap_cons, if_neg h, ih]; rfl

theorem forElems_named {step : σ → Element → Res σ} (get : σ → List β) {tags : List String}
    {R : Element → β → Prop} {c : List XMLNode} {s s' : σ} (h : forElems step s c = .ok s')
    (h0 : get s = [])
    (hstep : ∀ s x s', step s x = .ok s' →
      (x.name ∈ tags ∧ ∃ v, R x v ∧ get s' = get s ++ [v]) ∨ (x.name ∉ tags ∧ get s' = get s)) :
    List.Forall₂ R (named tags c) (get s') := by
  obtain ⟨-, l, hl, hg⟩ := forElems_sel (R := R) get (fun _ => True)
    (fun x => if x.name ∈ tags then [x] else []) (fun s x s' _ hs => by
      refine ⟨trivial, ?_⟩
      rcases hstep s x s' hs with ⟨hx, v, hv, hg⟩ | ⟨hx, hg⟩
      · exact ⟨[v], by simp only [if_pos hx]; exact .cons hv .nil, hg⟩
      · exact ⟨[], by simp only [if_neg hx]; exact .nil, by simp [hg]⟩) trivial h
  rw [named_eq_flatMap, hg, h0]
  exact hl

theorem forElems_inside {step : σ → Element → Res σ} (get : σ → List β) {tags : List String}
    {R : Element → β → Prop} {c : List XMLNode} {s s' : σ} (h : forElems step s c = .ok s')
    (h0 : get s = [])
    (hstep : ∀ s x s', step s x = .ok s' →
      (x.name ∈ tags ∧ ∃ l, List.Forall₂ R (elems x.children) l ∧ get s' = get s ++ l) ∨
        (x.name ∉ tags ∧ get s' = get s)) :
    List.Forall₂ R ((named tags c).flatMap fun x => elems x.children) (get s') := by
  obtain ⟨-, l, hl, hg⟩ := forElems_sel (R := R) get (fun _ => True)
    (fun x => if x.name ∈ tags then elems x.children else []) (fun s x s' _ hs => by
      refine ⟨trivial, ?_⟩
      rcases hstep s x s' hs with ⟨hx, l, hl, hg⟩ | ⟨hx, hg⟩
      · exact ⟨l, by simp only [if_pos hx]; exact hl, hg⟩
      · exact ⟨[], by simp only [if_neg hx]; exact .nil, by simp [hg]⟩) trivial h
  rw [hg, h0]
  refine cast ?_ hl
  congr 1
  unfold named
  induction elems c with
  | nil => rfl
  | cons x l ih =>
    by_cases h : x.name ∈ tags
    · rw [List.filter_cons_of_pos (by simpa using h), List.flatMap_cons, if_pos h, ih]; rfl
    · rw [List.filter_cons_of_neg (by simpa using h), List.flatMap_cons, if_neg h, ih]; rfl

/-- A field that is overwritten holds the value of the last element. -/
theorem forElems_last {step : σ → Element → Res σ} (get : σ → Option β) {tags : List String}
    {R : Element → β → Prop} {c : List XMLNode} {s s' : σ} (h : forElems step s c = .ok s')
    (h0 : get s = none)
    (hstep : ∀ s x s', step s x = .ok s' →
      (x.name ∈ tags ∧ ∃ v, R x v ∧ get s' = some v) ∨ (x.name ∉ tags ∧ get s' = get s)) :
    Option.Rel R (named tags c).getLast? (get s') := by
  have key : ∀ (c : List XMLNode) (s : σ), forElems step s c = .ok s' →
      (named tags c = [] ∧ get s' = get s) ∨
        ∃ x v, (named tags c).getLast? = some x ∧ R x v ∧ get s' = some v := by
    intro c
    unfold forElems
    induction c with
    | nil => intro s h; cases h; exact .inl ⟨rfl, rfl⟩
    | cons y c ih =>
      intro s h
      rw [foldRes_cons] at h
      obtain ⟨t, ht, hr⟩ := Res.bind_eq_ok.1 h
      clear h
      cases y with
      | element n a d =>
        have hc : named tags (.element n a d :: c) =
            if n ∈ tags then ⟨n, a, d⟩ :: named tags c else named tags c := by
          unfold named
          rw [elems_element, List.filter_cons]
          simp
        rw [hc]
        rcases ih t hr with ⟨he, hg⟩ | ⟨x, v, hx, hv, hg⟩
        · rcases hstep s ⟨n, a, d⟩ t ht with ⟨hm, v, hv, hg'⟩ | ⟨hm, hg'⟩
          · rw [if_pos hm, he]
            exact .inr ⟨_, v, rfl, hv, hg.trans hg'⟩
          · rw [if_neg hm]
            exact .inl ⟨he, hg.trans hg'⟩
        · refine .inr ⟨x, v, ?_, hv, hg⟩
          split
          · rw [List.getLast?_cons, hx]; rfl
          · exact hx
      | _ => cases ht; exact ih s hr
  rcases key c s h with ⟨he, hg⟩ | ⟨x, v, hx, hv, hg⟩
  · rw [he, hg, h0]; exact .none
  · rw [hx, hg]; exact .some hv

theorem readAll_forall₂ {p : Element → Res α} {c : List XMLNode} {l : List α}
    (h : readAll p c = .ok l) : List.Forall₂ (fun x v => p x = .ok v) (elems c) l := by
  unfold readAll at h
  induction c generalizing l with
  | nil => cases h; exact .nil
  | cons x c ih =>
    rw [collectRes_cons] at h
    obtain ⟨b, hb, h⟩ := Res.bind_eq_ok.1 h
    obtain ⟨bs, hbs, h⟩ := Res.bind_eq_ok.1 h
    cases h
    cases x with
    | element n a d =>
      obtain ⟨v, hv, hb⟩ := Res.bind_eq_ok.1 hb
      cases hb
      exact .cons hv (ih hbs)
    | _ => cases hb; exact ih hbs

theorem forall₂_named {tags : List String} {R : Element → α → Prop} {c : List XMLNode} {l : List α}
    (h : List.Forall₂ R (elems c) l) (ht : ∀ x v, R x v → x.name ∈ tags) :
    List.Forall₂ R (named tags c) l := by
  unfold named
  generalize elems c = xs at h
  induction h with
  | nil => exact .nil
  | cons hv _ ih =>
    rw [List.filter_cons_of_pos (by simpa using ht _ _ hv)]
    exact .cons hv ih

theorem readAll_named {p : Element → Res α} {R : Element → α → Prop} {tags : List String}
    {c : List XMLNode} {l : List α} (h : readAll p c = .ok l)
    (hp : ∀ x v, p x = .ok v → x.name ∈ tags ∧ R x v) : List.Forall₂ R (named tags c) l := by
  have h2 : List.Forall₂ (fun x v => x.name ∈ tags ∧ R x v) (elems c) l :=
    (readAll_forall₂ h).imp hp
  exact (forall₂_named h2 fun _ _ h => h.1).imp fun _ _ h => h.2

theorem readTagged_named {p : Element → Res α} {tag : String} {c : List XMLNode} {l : List α}
    (h : readTagged tag p c = .ok l) :
    List.Forall₂ (fun x v => p x = .ok v) (named [tag] c) l := by
  unfold readTagged at h
  induction c generalizing l with
  | nil => cases h; exact .nil
  | cons x c ih =>
    rw [collectRes_cons] at h
    obtain ⟨b, hb, h⟩ := Res.bind_eq_ok.1 h
    obtain ⟨bs, hbs, h⟩ := Res.bind_eq_ok.1 h
    cases h
    cases x with
    | element n a d =>
      have hc : named [tag] (.element n a d :: c) =
          if n = tag then ⟨n, a, d⟩ :: named [tag] c else named [tag] c := by
        unfold named
        rw [elems_element, List.filter_cons]
        simp
      rw [hc]
      simp only at hb
      split at hb
      · next hn =>
        obtain ⟨v, hv, hb⟩ := Res.bind_eq_ok.1 hb
        cases hb
        rw [if_pos hn]
        exact .cons hv (ih hbs)
      · next hn =>
        cases hb
        rw [if_neg hn]
        exact ih hbs
    | _ => cases hb; exact ih hbs

theorem mixed_pieces {p : Element → Res α} {str : String → α} {R : XMLNode → α → Prop}
    {c : List XMLNode} {l : List α} (h : mixed p str c = .ok l)
    (hs : ∀ s, R (.text s) (str s))
    (hp : ∀ n a d v, p ⟨n, a, d⟩ = .ok v → R (.element n a d) v) :
    List.Forall₂ R (pieces c) l := by
  unfold mixed at h
  induction c generalizing l with
  | nil => cases h; exact .nil
  | cons x c ih =>
    rw [collectRes_cons] at h
    obtain ⟨b, hb, h⟩ := Res.bind_eq_ok.1 h
    obtain ⟨bs, hbs, h⟩ := Res.bind_eq_ok.1 h
    cases h
    cases x with
    | element n a d =>
      obtain ⟨v, hv, hb⟩ := Res.bind_eq_ok.1 hb
      cases hb
      exact .cons (hp n a d v hv) (ih hbs)
    | text s => cases hb; exact .cons (hs s) (ih hbs)
    | _ => cases hb; exact ih hbs

theorem matchTag_elim {t : String} {p : Element → Res α} {arms : List (String × (Element → Res α))}
    {d : Element → Res α} {x : Element} {v : α} {P : Prop} (h1 : x.name = t → p x = .ok v → P)
    (h2 : matchTag arms d x = .ok v → P) : matchTag ((t, p) :: arms) d x = .ok v → P := by
  intro h
  rw [matchTag_cons] at h
  split at h
  · exact h1 ‹_› h
  · exact h2 h

theorem matchTag_end {d : Element → Res α} {x : Element} {v : α} {P : Prop}
    (h : d x = .ok v → P) : matchTag [] d x = .ok v → P := h

/-- Go through the arms of a `matchTag`. -/
macro "arms_cases" : tactic => `(tactic|
  repeat' with_reducible first
    | refine matchTag_elim ?_ ?_
    | refine matchTag_end ?_)

/-- One element of a loop: pushed on the field, or not. -/
syntax "field_step " ident* : tactic
macro_rules
  | `(tactic| field_step $[$d:ident]*) => `(tactic|
    (intro s x s' h
     simp only [$[$d:ident],*, List.map_cons, List.map_nil] at h
     revert h
     arms_cases
     all_goals first
       | (intro hx h
          obtain ⟨v, hv, h⟩ := Res.bind_eq_ok.1 h
          cases h
          first
            | (refine .inl ⟨by rw [hx]; decide, _, ?_, rfl⟩
               first
                 | exact hv
                 | exact ⟨hx, hv⟩
                 | (obtain ⟨u, hu, hv⟩ := Res.bind_eq_ok.1 hv
                    cases hv
                    exact ⟨hx, hu⟩))
            | exact .inr ⟨by rw [hx]; decide, rfl⟩)
       | (intro h; cases h)))

theorem BodyStruct.addRemarks_title {τ β : Type} (s : BodyStruct.St L τ β)
    (o : Option (Remarks L)) : (BodyStruct.addRemarks s o).title = s.title := by
  cases o with
  | none => rfl
  | some r => unfold BodyStruct.addRemarks; dsimp only; split <;> rfl

theorem BodyStruct.addRemarks_body {τ β : Type} (s : BodyStruct.St L τ β)
    (o : Option (Remarks L)) : (BodyStruct.addRemarks s o).body = s.body := by
  cases o with
  | none => rfl
  | some r => unfold BodyStruct.addRemarks; dsimp only; split <;> rfl

/-- One element of a loop: read into the field, or not. -/
syntax "last_step " ident* : tactic
macro_rules
  | `(tactic| last_step $[$d:ident]*) => `(tactic|
    (intro s x s' h
     simp only [$[$d:ident],*, List.map_cons, List.map_nil] at h
     revert h
     arms_cases
     all_goals first
       | (intro hx h
          obtain ⟨v, hv, h⟩ := Res.bind_eq_ok.1 h
          cases h
          first
            | exact .inl ⟨by rw [hx]; decide, v, hv, rfl⟩
            | exact .inr ⟨by rw [hx]; decide, rfl⟩
            | exact .inr ⟨by rw [hx]; decide, BodyStruct.addRemarks_title _ _⟩
            | exact .inr ⟨by rw [hx]; decide, BodyStruct.addRemarks_body _ _⟩)
       | (intro h; cases h)))

/-- One element of a loop: its children are pushed on the field, or not. -/
syntax "inside_step " ident* : tactic
macro_rules
  | `(tactic| inside_step $[$d:ident]*) => `(tactic|
    (intro s x s' h
     simp only [$[$d:ident],*, List.map_cons, List.map_nil] at h
     revert h
     arms_cases
     all_goals first
       | (intro hx h
          obtain ⟨v, hv, h⟩ := Res.bind_eq_ok.1 h
          cases h
          first
            | exact .inl ⟨by rw [hx]; decide, v, readAll_forall₂ hv, rfl⟩
            | exact .inr ⟨by rw [hx]; decide, rfl⟩)
       | (intro h; cases h)))

/-- The arms of an enumeration. -/
syntax "arms_reads " ident : tactic
macro_rules
  | `(tactic| arms_reads $d:ident) => `(tactic|
    (intro y w o h
     simp only [$d:ident] at h
     revert h
     arms_cases
     all_goals first
       | (intro hx h
          obtain ⟨v, hv, h⟩ := Res.bind_eq_ok.1 h
          cases h
          exact ⟨by rw [hx]; decide, hx, hv⟩)
       | (intro h; cases h)))

/-- The arms of an enumeration with strings. -/
syntax "mixed_reads " ident : tactic
macro_rules
  | `(tactic| mixed_reads $d:ident) => `(tactic|
    (intro n a d w h
     simp only [$d:ident] at h
     revert h
     arms_cases
     all_goals first
       | (intro hx h
          obtain ⟨v, hv, h⟩ := Res.bind_eq_ok.1 h
          cases h
          exact ⟨hx, hv⟩)
       | (intro h; cases h)))

/-- The arms of an enumeration with strings, by the tag alone. -/
theorem newProvision_reads (y : Element) (w : NewProvision L) (o : Element)
    (h : matchTag NewProvision.arms (unexpected o) y = .ok w) : w.Reads y := by
  simp only [NewProvision.arms] at h
  revert h
  arms_cases
  all_goals first
    | (intro hx h
       obtain ⟨v, hv, h⟩ := Res.bind_eq_ok.1 h
       cases h
       exact ⟨hx, hv⟩)
    | (intro h; cases h)

theorem hier_named {γ : Type} {tag titleTag : String} {arms : List (String × (Element → Res γ))}
    {R : Element → γ → Prop} {tags : List String} {e : Element} {v : HierOf L γ}
    (h : HierOf.parser tag titleTag arms e = .ok v)
    (hp : ∀ y w o, matchTag arms (unexpected o) y = .ok w → y.name ∈ tags ∧ R y w)
    (ht : titleTag ∉ tags) : List.Forall₂ R (named tags e.children) v.children := by
  have h := (ite_eq_ok h).2
  obtain ⟨_, -, h⟩ := Res.bind_eq_ok.1 h
  obtain ⟨_, -, h⟩ := Res.bind_eq_ok.1 h
  obtain ⟨_, -, h⟩ := Res.bind_eq_ok.1 h
  obtain ⟨t, htl, h⟩ := Res.bind_eq_ok.1 h
  obtain ⟨l, hl, h⟩ := Res.bind_eq_ok.1 h
  cases h
  unfold HierOf.titleOf at htl
  split at htl
  · next n a c rest hc =>
    split at htl
    · next hn =>
      rw [hc] at hl ⊢
      have : named tags (.element n a c :: rest) = named tags rest := by
        unfold named
        rw [elems_element, List.filter_cons_of_neg (by simpa [hn] using ht)]
      rw [this]
      exact readAll_named hl fun y w hy => hp y w e hy
    · cases htl
  · cases htl

theorem articleHead_named {c : List XMLNode} {cap : Option (Caption L)} {t : Text L}
    {r : Option (Caption L) × Text L × List XMLNode} (h : Article.head cap t c = .ok r) :
    named ["Paragraph"] c = named ["Paragraph"] r.2.2 := by
  induction c generalizing cap t with
  | nil => cases h
  | cons x c ih =>
    cases x with
    | element n a d =>
      simp only [Article.head] at h
      have hc : named ["Paragraph"] (.element n a d :: c) =
          if n = "Paragraph" then ⟨n, a, d⟩ :: named ["Paragraph"] c
          else named ["Paragraph"] c := by
        unfold named
        rw [elems_element, List.filter_cons]
        simp
      split at h
      · cases h; rfl
      · split at h
        · next hn =>
          obtain ⟨w, -, h⟩ := Res.bind_eq_ok.1 h
          rw [hc, if_neg (by rw [hn]; decide)]
          exact ih h
        · next hnot hn =>
          obtain ⟨w, -, h⟩ := Res.bind_eq_ok.1 h
          rw [hc, if_neg (by rintro rfl; exact hnot ⟨by decide, by decide⟩)]
          exact ih h
    | _ => exact ih h

theorem listSentences_ok {sentTag errName : String} {e : Element} {l : List (ListSentence L)}
    (h : listSentences sentTag errName e = .ok l) :
    ∃ a c rest, e.children = .element sentTag a c :: rest ∧
      readAll (ListSentence.parser e) c = .ok l := by
  unfold listSentences at h
  split at h
  · next n a c rest hc =>
    split at h
    · next hn => exact ⟨a, c, rest, by rw [hc, hn], h⟩
    · cases h
  · cases h

theorem listSentences_reads {o : Element} {c : List XMLNode} {l : List (ListSentence L)}
    (h : readAll (ListSentence.parser o) c = .ok l) :
    List.Forall₂ ListSentence.Reads (elems c) l := by
  refine (readAll_forall₂ h).imp fun y w h => ?_
  simp only [ListSentence.parser] at h
  revert h
  arms_cases
  all_goals first
    | (intro hx h
       obtain ⟨v, hv, h⟩ := Res.bind_eq_ok.1 h
       cases h
       exact ⟨hx, hv⟩)
    | (intro h; cases h)

theorem list_named {γ : Type} {tag sentTag errName child : String} {childP : Element → Res γ}
    {e : Element} {v : ListOf L γ} (h : ListOf.parser tag sentTag errName childP e = .ok v)
    (hne : sentTag ≠ child) (hp : ∀ x w, childP x = .ok w → x.name = child) :
    InOrder childP (named [child] e.children) v.children ∧
      List.Forall₂ ListSentence.Reads
        ((named [sentTag] e.children).flatMap fun x => elems x.children) v.sentence := by
  have h := (ite_eq_ok h).2
  obtain ⟨s, hs, h⟩ := Res.bind_eq_ok.1 h
  obtain ⟨l, hl, h⟩ := Res.bind_eq_ok.1 h
  cases h
  obtain ⟨a, c, rest, hc, hs⟩ := listSentences_ok hs
  rw [hc] at hl ⊢
  have h1 : named [child] (.element sentTag a c :: rest) = named [child] rest := by
    unfold named
    rw [elems_element, List.filter_cons_of_neg (by simpa using hne)]
  have h3 := readAll_named (tags := [child]) hl fun x w hw => ⟨by simpa using hp x w hw, hw⟩
  have h2 : named [sentTag] rest = [] := by
    unfold named
    rw [List.filter_eq_nil_iff]
    intro x hx
    have := readAll_forall₂ (p := childP) hl
    rw [List.tail_cons] at this
    have hx' : x.name = child := by
      clear * - this hx hp
      generalize elems rest = xs at this hx
      induction this with
      | nil => cases hx
      | cons hv _ ih =>
        cases hx with
        | head => exact hp _ _ hv
        | tail _ hx => exact ih hx
    simpa [hx'] using Ne.symm hne
  have h4 : named [sentTag] (.element sentTag a c :: rest) = [⟨sentTag, a, c⟩] := by
    have : named [sentTag] (.element sentTag a c :: rest) =
        ⟨sentTag, a, c⟩ :: named [sentTag] rest := by
      unfold named
      rw [elems_element, List.filter_cons_of_pos (by simp)]
    rw [this, h2]
  refine ⟨by rw [h1]; exact h3, ?_⟩
  rw [h4]
  simpa using listSentences_reads hs

theorem bodyStruct_remarks {τ β : Type} {tag titleTag bodyTag : String} {titleP : Element → Res τ}
    {bodyP : Element → Res β} {e : Element} {v : BodyStruct L τ β} (ht : titleTag ≠ "Remarks")
    (hb : bodyTag ≠ "Remarks")
    (h : BodyStruct.parser tag titleTag bodyTag titleP bodyP e = .ok v) :
    InOrder Remarks.parser
      ((named ["Remarks"] e.children).filter (readable (Remarks.parser (L := L))))
      (v.title_remarks ++ v.body_remarks) := by
  have h := (ite_eq_ok h).2
  obtain ⟨s, hs, h⟩ := Res.bind_eq_ok.1 h
  obtain ⟨-, l, hl, hg⟩ := forElems_sel
    (R := fun (x : Element) (r : Remarks L) => Remarks.parser x = .ok r)
    (fun s : BodyStruct.St L τ β => s.title_remarks ++ s.body_remarks)
    (fun s => s.body = none → s.body_remarks = [])
    (fun x => if x.name = "Remarks" then
      (if readable (Remarks.parser (L := L)) x then [x] else []) else [])
    (by
      intro s x s' hi h
      simp only [BodyStruct.step] at h
      revert h
      arms_cases
      · intro hx h
        obtain ⟨v, hv, h⟩ := Res.bind_eq_ok.1 h
        cases h
        exact ⟨hi, [], by rw [if_neg (by rw [hx]; exact ht)]; exact .nil, by simp⟩
      · intro hx h
        obtain ⟨o, ho, h⟩ := Res.bind_eq_ok.1 h
        cases h
        rw [if_pos hx]
        cases hp : Remarks.parser (L := L) x with
        | ok r =>
          rw [hp] at ho
          cases ho
          have hr : readable (Remarks.parser (L := L)) x = true := by simp [readable, hp]
          rw [if_pos hr]
          unfold BodyStruct.addRemarks
          cases hbd : s.body with
          | none =>
            refine ⟨fun _ => hi hbd, [r], .cons hp .nil, ?_⟩
            simp [hi hbd]
          | some b =>
            refine ⟨fun hn => ?_, [r], .cons hp .nil, ?_⟩
            · simp at hn
            · simp
        | err x' =>
          rw [hp] at ho
          cases ho
          have hr : ¬ readable (Remarks.parser (L := L)) x = true := by simp [readable, hp]
          rw [if_neg hr]
          exact ⟨hi, [], .nil, by simp [BodyStruct.addRemarks]⟩
        | panic => rw [hp] at ho; cases ho
        | deep => rw [hp] at ho; cases ho
      · intro hx h
        obtain ⟨v, hv, h⟩ := Res.bind_eq_ok.1 h
        cases h
        exact ⟨fun h => by simp at h, [],
          by rw [if_neg (by rw [hx]; exact hb)]; exact .nil, by simp⟩
      · intro h; cases h) (by intro _; rfl) hs
  have hf : (named ["Remarks"] e.children).filter (readable (Remarks.parser (L := L))) =
      (elems e.children).flatMap fun x => if x.name = "Remarks" then
        (if readable (Remarks.parser (L := L)) x then [x] else []) else [] := by
    unfold named
    induction elems e.children with
    | nil => rfl
    | cons x l ih =>
      rw [List.flatMap_cons, ← ih, List.filter_cons]
      by_cases h : x.name = "Remarks"
      · by_cases hr : readable (Remarks.parser (L := L)) x = true <;> simp [h, hr]
      · simp [h]
  rw [hf]
  split at h
  · cases h
    simp only at hg
    rw [hg]
    exact hl
  · cases h

end JLaw
