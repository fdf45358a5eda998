import Verif.Lemmas.Xml
import Verif.Model.Law

/-! # Readers that give no value: the pieces -/

namespace JLaw

variable {α β σ : Type}

/-- No value is returned. -/
def Res.Fails (r : Res α) : Prop := ∀ v, r ≠ .ok v

namespace Fails

theorem err (e : Err) : (Res.err e : Res α).Fails := fun _ h => by cases h

theorem bind_left {r : Res α} {f : α → Res β} (h : r.Fails) : (r.bind f).Fails := by
  intro v hv
  obtain ⟨a, ha, -⟩ := Res.bind_eq_ok.1 hv
  exact h a ha

theorem bind_right {r : Res α} {f : α → Res β} (h : ∀ a, (f a).Fails) : (r.bind f).Fails := by
  intro v hv
  obtain ⟨a, -, ha⟩ := Res.bind_eq_ok.1 hv
  exact h a v ha

theorem ite {c : Prop} [Decidable c] {r s : Res α} (h : r.Fails) (h' : s.Fails) :
    (if c then r else s).Fails := by
  split <;> assumption

theorem foldRes {step : σ → α → Res σ} {l : List α} {a : α} (ha : a ∈ l)
    (h : ∀ s, (step s a).Fails) (s : σ) : (JLaw.foldRes step s l).Fails := by
  induction l generalizing s with
  | nil => cases ha
  | cons b l ih =>
    cases ha with
    | head => exact bind_left (h s)
    | tail _ ha => exact bind_right fun s' => ih ha s'

theorem collectRes {f : α → Res (List β)} {l : List α} {a : α} (ha : a ∈ l) (h : (f a).Fails) :
    (JLaw.collectRes f l).Fails := by
  induction l with
  | nil => cases ha
  | cons b l ih =>
    cases ha with
    | head => exact bind_left h
    | tail _ ha => exact bind_right fun _ => bind_left (ih ha)

theorem forElems {step : σ → Element → Res σ} {c : List XMLNode} {x : Element} (hx : x.node ∈ c)
    (h : ∀ s, (step s x).Fails) (s : σ) : (JLaw.forElems step s c).Fails :=
  foldRes hx (fun s => h s) s

theorem mixed {p : Element → Res α} {str : String → α} {c : List XMLNode} {x : Element}
    (hx : x.node ∈ c) (h : (p x).Fails) : (JLaw.mixed p str c).Fails :=
  collectRes hx (bind_left h)

theorem readAll {p : Element → Res α} {c : List XMLNode} {x : Element}
    (hx : x.node ∈ c) (h : (p x).Fails) : (JLaw.readAll p c).Fails :=
  collectRes hx (bind_left h)

theorem matchTag {arms : List (String × (Element → Res α))} {d : Element → Res α} {x : Element}
    (h : x.name ∉ arms.map Prod.fst) (hd : (d x).Fails) : (JLaw.matchTag arms d x).Fails := by
  induction arms with
  | nil => exact hd
  | cons a arms ih =>
    simp only [List.map_cons, List.mem_cons, not_or] at h
    rw [JLaw.matchTag_cons, if_neg h.1]
    exact ih h.2

theorem unexpected (o x : Element) : (JLaw.unexpected o x : Res α).Fails := err _

theorem childArms_fst (arms : List (String × (Element → Res α))) (push : α → Res β) :
    (JLaw.childArms arms push).map Prod.fst = arms.map Prod.fst := by
  simp [JLaw.childArms, Function.comp_def]

end Fails

/-- Closes `x.name ∉ ..` from a hypothesis about a longer list. -/
macro "not_tag " h:term : tactic => `(tactic|
  (have hn := $h
   simp only [List.mem_cons, List.not_mem_nil, not_or, or_false, List.map_cons, List.map_nil,
     List.mem_append, List.cons_append, List.nil_append] at hn ⊢
   simp [hn]))

/-- Goes through a reader up to the loop over the children `hx` is about. -/
macro "fails " hx:term ", " hn:term : tactic => `(tactic|
  (refine Fails.ite ?_ (Fails.err _)
   repeat' first
     | refine Fails.bind_left (Fails.forElems $hx (fun _ => ?_) _)
     | refine Fails.bind_left (Fails.mixed $hx ?_)
     | refine Fails.bind_left (Fails.readAll $hx ?_)
     | refine Fails.matchTag (by not_tag $hn) ?_
     | exact Fails.unexpected _ _
     | exact Fails.err _
     | refine Fails.bind_right (fun _ => ?_)))

end JLaw
