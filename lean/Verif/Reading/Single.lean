import Verif.Reading.Order

/-! # Parts that are held at most once -/

namespace JLaw

/-- The field holds the last element with the tag, and nothing if there is none. -/
def LastOpt {α : Type} (p : Element → Res α) (tag : String) (c : List XMLNode) :
    Option α → Prop
  | some v => ∃ x, (named [tag] c).getLast? = some x ∧ p x = .ok v
  | none => named [tag] c = []

/-- There is an element with the tag, and the field holds the last one. -/
def LastReq {α : Type} (p : Element → Res α) (tag : String) (c : List XMLNode) (v : α) : Prop :=
  ∃ x, (named [tag] c).getLast? = some x ∧ p x = .ok v

/-- The field holds the last element with the tag, and `d` if there is none. -/
def LastOr {α : Type} (d : α) (p : Element → Res α) (tag : String) (c : List XMLNode) (v : α) :
    Prop :=
  (named [tag] c = [] ∧ v = d) ∨ ∃ x, (named [tag] c).getLast? = some x ∧ p x = .ok v

theorem lastOpt_of_rel {α : Type} {p : Element → Res α} {tag : String} {c : List XMLNode}
    {o : Option α} (h : Option.Rel (fun x v => p x = .ok v) (named [tag] c).getLast? o) :
    LastOpt p tag c o := by
  cases o with
  | none =>
    cases hl : (named [tag] c).getLast? with
    | none => exact List.getLast?_eq_none_iff.1 hl
    | some x => rw [hl] at h; cases h
  | some v =>
    cases hl : (named [tag] c).getLast? with
    | none => rw [hl] at h; cases h
    | some x => rw [hl] at h; cases h with | some h => exact ⟨x, hl, h⟩

/-- A field with a default that is overwritten. -/
theorem forElems_over {σ β : Type} {step : σ → Element → Res σ} (get : σ → β) {tag : String}
    {p : Element → Res β} {d : β} {c : List XMLNode} {s s' : σ} (h : forElems step s c = .ok s')
    (h0 : get s = d)
    (hstep : ∀ s x s', step s x = .ok s' →
      (x.name ∈ [tag] ∧ ∃ v, p x = .ok v ∧ get s' = v) ∨ (x.name ∉ [tag] ∧ get s' = get s)) :
    LastOr d p tag c (get s') := by
  subst h0
  unfold forElems at h
  induction c generalizing s with
  | nil => cases h; exact .inl ⟨rfl, rfl⟩
  | cons y c ih =>
    rw [foldRes_cons] at h
    obtain ⟨t, ht, hr⟩ := Res.bind_eq_ok.1 h
    clear h
    cases y with
    | element n a b =>
      have hc : named [tag] (.element n a b :: c) =
          if n ∈ [tag] then ⟨n, a, b⟩ :: named [tag] c else named [tag] c := by
        unfold named
        rw [elems_element, List.filter_cons]
        simp
      unfold LastOr
      rw [hc]
      rcases ih hr with ⟨he, hg⟩ | ⟨x, hx, hv⟩
      · rcases hstep s ⟨n, a, b⟩ t ht with ⟨hm, v, hv, hg'⟩ | ⟨hm, hg'⟩
        · rw [if_pos hm, he]
          exact .inr ⟨⟨n, a, b⟩, rfl, by rw [hv, hg, hg']⟩
        · rw [if_neg hm]
          exact .inl ⟨he, hg.trans hg'⟩
      · refine .inr ⟨x, ?_, hv⟩
        split
        · rw [List.getLast?_cons, hx]; rfl
        · exact hx
    | _ => cases ht; exact ih hr

theorem named_cons_element (tag n : String) (a : Attrs) (b c : List XMLNode) :
    named [tag] (.element n a b :: c) =
      if n = tag then ⟨n, a, b⟩ :: named [tag] c else named [tag] c := by
  unfold named
  rw [elems_element, List.filter_cons]
  simp

/-- Captions and titles stand before the first paragraph. -/
theorem articleHead_last {L : Lvl} {c : List XMLNode} {cap : Option (Caption L)} {t : Text L}
    {r : Option (Caption L) × Text L × List XMLNode} (h : Article.head cap t c = .ok r)
    (h1 : named ["ArticleCaption"] r.2.2 = []) (h2 : named ["ArticleTitle"] r.2.2 = []) :
    ((named ["ArticleCaption"] c = [] ∧ r.1 = cap) ∨ ∃ v x, r.1 = some v ∧
      (named ["ArticleCaption"] c).getLast? = some x ∧ Caption.parser x = .ok v) ∧
    LastOr t (fun x => Text.fromChildren x.children) "ArticleTitle" c r.2.1 := by
  induction c generalizing cap t with
  | nil => cases h
  | cons y c ih =>
    cases y with
    | element n a d =>
      simp only [Article.head] at h
      split at h
      · cases h; exact ⟨.inl ⟨h1, rfl⟩, .inl ⟨h2, rfl⟩⟩
      · split at h
        · next hn =>
          obtain ⟨w, hw, h⟩ := Res.bind_eq_ok.1 h
          obtain ⟨i1, i2⟩ := ih h
          unfold LastOr
          rw [named_cons_element, named_cons_element, if_pos hn, if_neg (by rw [hn]; decide)]
          refine ⟨.inr ?_, i2⟩
          rcases i1 with ⟨i1, i3⟩ | ⟨v, x, i1, i3, i4⟩
          · exact ⟨w, ⟨n, a, d⟩, i3, by rw [i1]; rfl, hw⟩
          · exact ⟨v, x, i1, by rw [List.getLast?_cons, i3]; rfl, i4⟩
        · next hnot hn =>
          have hn' : n = "ArticleTitle" := by
            by_contra hne
            exact hnot ⟨hn, hne⟩
          obtain ⟨w, hw, h⟩ := Res.bind_eq_ok.1 h
          obtain ⟨i1, i2⟩ := ih h
          unfold LastOr
          rw [named_cons_element, named_cons_element, if_pos hn', if_neg hn]
          refine ⟨i1, .inr ?_⟩
          rcases i2 with ⟨i2, i3⟩ | ⟨x, i2, i3⟩
          · exact ⟨⟨n, a, d⟩, by rw [i2]; rfl, by rw [i3]; exact hw⟩
          · exact ⟨x, by rw [List.getLast?_cons, i2]; rfl, i3⟩
    | _ => exact ih h

theorem articleHead_note {L : Lvl} {c : List XMLNode} {cap : Option (Caption L)} {t : Text L}
    {r : Option (Caption L) × Text L × List XMLNode} (h : Article.head cap t c = .ok r) :
    named ["SupplNote"] c = named ["SupplNote"] r.2.2 := by
  induction c generalizing cap t with
  | nil => cases h
  | cons y c ih =>
    cases y with
    | element n a d =>
      simp only [Article.head] at h
      split at h
      · cases h; rfl
      · next hn =>
        rw [named_cons_element, if_neg (by rintro rfl; exact hn ⟨by decide, by decide⟩)]
        split at h
        all_goals
          obtain ⟨w, -, h⟩ := Res.bind_eq_ok.1 h
          exact ih h
    | _ => exact ih h

theorem forElems_only {σ : Type} {step : σ → Element → Res σ} {tag : String}
    (hstep : ∀ s x s', step s x = .ok s' → x.name ≠ tag) {c : List XMLNode} {s s' : σ}
    (h : forElems step s c = .ok s') : named [tag] c = [] := by
  unfold forElems at h
  induction c generalizing s with
  | nil => rfl
  | cons y c ih =>
    rw [foldRes_cons] at h
    obtain ⟨t, ht, hr⟩ := Res.bind_eq_ok.1 h
    clear h
    cases y with
    | element n a b =>
      rw [named_cons_element, if_neg (hstep s ⟨n, a, b⟩ t ht)]
      exact ih hr
    | _ => cases ht; exact ih hr

end JLaw
