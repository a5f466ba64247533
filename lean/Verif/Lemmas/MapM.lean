/-
Running a parser on every element of a list.
-/
import Verif.Lemmas.Node
import Verif.Spec.Each

namespace OneNote

open Spec

variable {α β γ : Type}

theorem orErr_some {e : Err} {x : Option α} {a : α} (h : orErr e x = .ok a) : x = some a := by
  unfold orErr at h
  split at h
  · cases h; rfl
  · cases h

theorem mapM_each {f : α → Res β} {xs : List α} {ys : List β} :
    xs.mapM f = .ok ys ↔ Each (fun x y => f x = .ok y) xs ys := by
  constructor
  · intro h
    induction xs generalizing ys with
    | nil => cases h; exact .nil
    | cons x xs ih =>
      rw [List.mapM_cons] at h
      obtain ⟨y, hy, h⟩ := Res.bind_ok h
      obtain ⟨ys', hys, h⟩ := Res.bind_ok h
      cases h
      exact .cons hy (ih hys)
  · intro h
    induction h with
    | nil => rfl
    | cons hy _ ih =>
      rw [List.mapM_cons, hy]
      show (List.mapM f _ >>= _) = _
      rw [ih]
      rfl

theorem mapM_error {f : α → Res β} {xs : List α} {e : Err} :
    xs.mapM f = .error e ↔ ∃ before x after ys, xs = before ++ x :: after ∧
      Each (fun x y => f x = .ok y) before ys ∧ f x = .error e := by
  constructor
  · intro h
    induction xs with
    | nil => cases h
    | cons x xs ih =>
      rw [List.mapM_cons] at h
      cases hx : f x with
      | error e' =>
        rw [hx] at h
        cases h
        exact ⟨[], x, xs, [], rfl, .nil, hx⟩
      | ok y =>
        rw [hx] at h
        cases hxs : xs.mapM f with
        | ok ys =>
          rw [show (Except.ok y >>= fun b => List.mapM f xs >>= fun bs => pure (b :: bs))
            = (List.mapM f xs >>= fun bs => pure (y :: bs)) from rfl, hxs] at h
          cases h
        | error e' =>
          rw [show (Except.ok y >>= fun b => List.mapM f xs >>= fun bs => pure (b :: bs))
            = (List.mapM f xs >>= fun bs => pure (y :: bs)) from rfl, hxs] at h
          cases h
          obtain ⟨before, x', after, ys, rfl, hb, he⟩ := ih hxs
          exact ⟨x :: before, x', after, y :: ys, rfl, .cons hx hb, he⟩
  · rintro ⟨before, x, after, ys, rfl, hb, he⟩
    induction hb with
    | nil =>
      rw [List.nil_append, List.mapM_cons, he]
      rfl
    | cons hy _ ih =>
      rw [List.cons_append, List.mapM_cons, hy]
      show (List.mapM f _ >>= _) = _
      rw [ih]
      rfl

theorem mapM_congr {f g : α → Res β} {xs : List α} (h : ∀ x ∈ xs, f x = g x) :
    xs.mapM f = xs.mapM g := by
  induction xs with
  | nil => rfl
  | cons x xs ih =>
    rw [List.mapM_cons, List.mapM_cons, h x (List.mem_cons_self ..),
      ih fun y hy => h y (List.mem_cons_of_mem _ hy)]

theorem each_mem {R : α → β → Prop} {xs : List α} {ys : List β} (h : Each R xs ys) {y : β}
    (hy : y ∈ ys) : ∃ x ∈ xs, R x y := by
  induction h with
  | nil => cases hy
  | cons hr _ ih =>
    rcases List.mem_cons.1 hy with rfl | hy
    · exact ⟨_, List.mem_cons_self .., hr⟩
    · obtain ⟨x, hx, hr⟩ := ih hy
      exact ⟨x, List.mem_cons_of_mem _ hx, hr⟩

theorem each_mem' {R : α → β → Prop} {xs : List α} {ys : List β} (h : Each R xs ys) {x : α}
    (hx : x ∈ xs) : ∃ y ∈ ys, R x y := by
  induction h with
  | nil => cases hx
  | cons hr _ ih =>
    rcases List.mem_cons.1 hx with rfl | hx
    · exact ⟨_, List.mem_cons_self .., hr⟩
    · obtain ⟨y, hy, hr⟩ := ih hx
      exact ⟨y, List.mem_cons_of_mem _ hy, hr⟩

theorem each_mono {R S : α → β → Prop} {xs : List α} {ys : List β} (h : Each R xs ys)
    (hrs : ∀ x y, x ∈ xs → R x y → S x y) : Each S xs ys := by
  induction h with
  | nil => exact .nil
  | cons hr _ ih =>
    exact .cons (hrs _ _ (List.mem_cons_self ..) hr)
      (ih fun x y hx => hrs x y (List.mem_cons_of_mem _ hx))

theorem map_ok {f : α → β} {x : Res α} {b : β} (h : f <$> x = .ok b) :
    ∃ a, x = .ok a ∧ b = f a := by
  cases x with
  | error e => cases h
  | ok a => cases h; exact ⟨a, rfl, rfl⟩

theorem bind_congr' {x : Res α} {f g : α → Res β} (h : ∀ a, x = .ok a → f a = g a) :
    (x >>= f) = (x >>= g) := by
  cases x with
  | error e => rfl
  | ok a => exact h a rfl

end OneNote
