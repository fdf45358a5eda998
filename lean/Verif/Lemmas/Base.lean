import Mathlib.Data.List.Forall2
import Verif.Model.Base

/-! # Lemmas about the base definitions -/

namespace JLaw

/-! ## Outcomes -/

namespace Res

@[simp] theorem bind_ok {α β : Type} (a : α) (f : α → Res β) : (ok a).bind f = f a := rfl
@[simp] theorem bind_err {α β : Type} (e : Err) (f : α → Res β) :
    (err e : Res α).bind f = err e := rfl
@[simp] theorem bind_panic {α β : Type} (f : α → Res β) : (panic : Res α).bind f = panic := rfl
@[simp] theorem bind_deep {α β : Type} (f : α → Res β) : (deep : Res α).bind f = deep := rfl

theorem bind_assoc {α β γ : Type} (r : Res α) (f : α → Res β) (g : β → Res γ) :
    (r.bind f).bind g = r.bind fun a => (f a).bind g := by
  cases r <;> rfl

@[simp] theorem bind_pure {α : Type} (r : Res α) : r.bind ok = r := by
  cases r <;> rfl

theorem bind_eq_ok {α β : Type} {r : Res α} {f : α → Res β} {b : β} :
    r.bind f = ok b ↔ ∃ a, r = ok a ∧ f a = ok b := by
  cases r <;> simp

@[simp] theorem skipErr_ok {α : Type} (a : α) : (ok a).skipErr = ok (some a) := rfl
@[simp] theorem skipErr_err {α : Type} (e : Err) : (err e : Res α).skipErr = ok none := rfl
@[simp] theorem skipErr_panic {α : Type} : (panic : Res α).skipErr = panic := rfl
@[simp] theorem skipErr_deep {α : Type} : (deep : Res α).skipErr = deep := rfl

end Res

/-! ## Loops -/

@[simp] theorem foldRes_nil {σ α : Type} (step : σ → α → Res σ) (s : σ) :
    foldRes step s [] = .ok s := rfl

@[simp] theorem foldRes_cons {σ α : Type} (step : σ → α → Res σ) (s : σ) (a : α) (as : List α) :
    foldRes step s (a :: as) = (step s a).bind fun s' => foldRes step s' as := rfl

theorem foldRes_append {σ α : Type} (step : σ → α → Res σ) (s : σ) (xs ys : List α) :
    foldRes step s (xs ++ ys) = (foldRes step s xs).bind fun s' => foldRes step s' ys := by
  induction xs generalizing s with
  | nil => rfl
  | cons x xs ih =>
    simp only [List.cons_append, foldRes_cons, Res.bind_assoc]
    congr 1
    funext s'
    exact ih s'

@[simp] theorem mapRes_nil {α β : Type} (f : α → Res β) : mapRes f [] = .ok [] := rfl

@[simp] theorem mapRes_cons {α β : Type} (f : α → Res β) (a : α) (as : List α) :
    mapRes f (a :: as) = (f a).bind fun b => (mapRes f as).bind fun bs => .ok (b :: bs) := rfl

theorem mapRes_append {α β : Type} (f : α → Res β) (xs ys : List α) :
    mapRes f (xs ++ ys) =
      (mapRes f xs).bind fun as => (mapRes f ys).bind fun bs => .ok (as ++ bs) := by
  induction xs with
  | nil => simp
  | cons x xs ih => simp [ih, Res.bind_assoc]

theorem mapRes_map {α β γ : Type} (f : β → Res γ) (g : α → β) (xs : List α) :
    mapRes f (xs.map g) = mapRes (fun a => f (g a)) xs := by
  induction xs with
  | nil => rfl
  | cons x xs ih => simp [ih]

/-- A loop gives back the list it is run on exactly when each step gives back its element. -/
theorem mapRes_eq_self {α : Type} (f : α → Res α) (xs : List α) :
    mapRes f xs = .ok xs ↔ ∀ x ∈ xs, f x = .ok x := by
  induction xs with
  | nil => simp
  | cons x xs ih =>
    simp only [mapRes_cons, Res.bind_eq_ok, List.forall_mem_cons]
    constructor
    · rintro ⟨b, hb, bs, hbs, h⟩
      cases h
      exact ⟨hb, ih.1 hbs⟩
    · rintro ⟨h1, h2⟩
      exact ⟨x, h1, xs, ih.2 h2, rfl⟩

theorem mapRes_eq_ok {α β : Type} (f : α → Res β) (xs : List α) (ys : List β) :
    mapRes f xs = .ok ys ↔ List.Forall₂ (fun x y => f x = .ok y) xs ys := by
  induction xs generalizing ys with
  | nil => cases ys <;> simp
  | cons x xs ih =>
    cases ys with
    | nil => simp [Res.bind_eq_ok]
    | cons y ys => simp [Res.bind_eq_ok, ih]

theorem mapRes_congr {α β : Type} (f g : α → Res β) (xs : List α) (h : ∀ x ∈ xs, f x = g x) :
    mapRes f xs = mapRes g xs := by
  induction xs with
  | nil => rfl
  | cons x xs ih =>
    simp only [mapRes_cons]
    rw [h x (by simp), ih fun y hy => h y (by simp [hy])]

/-- What a loop of steps that never touch the panic or depth outcome can return. -/
theorem mapRes_cases {α β : Type} (f : α → Res β) (xs : List α)
    (h : ∀ x ∈ xs, (∃ b, f x = .ok b) ∨ ∃ e, f x = .err e) :
    (∃ bs, mapRes f xs = .ok bs) ∨ ∃ x ∈ xs, ∃ e, f x = .err e ∧ mapRes f xs = .err e := by
  induction xs with
  | nil => exact .inl ⟨[], rfl⟩
  | cons x xs ih =>
    rcases h x (by simp) with ⟨b, hb⟩ | ⟨e, he⟩
    · rcases ih fun y hy => h y (by simp [hy]) with ⟨bs, hbs⟩ | ⟨y, hy, e, he, hm⟩
      · exact .inl ⟨b :: bs, by simp [hb, hbs]⟩
      · exact .inr ⟨y, by simp [hy], e, he, by simp [hb, hm]⟩
    · exact .inr ⟨x, by simp, e, he, by simp [he]⟩

theorem ite_eq_ok {α : Type} {c : Prop} [Decidable c] {r : Res α} {x : Err} {v : α}
    (h : (if c then r else .err x) = .ok v) : c ∧ r = .ok v := by
  split at h
  · exact ⟨‹_›, h⟩
  · cases h

end JLaw
