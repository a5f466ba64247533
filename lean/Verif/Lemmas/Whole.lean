/-
From the bytes of a file to its store.
-/
import Verif.Lemmas.SameSpace
import Verif.Props.C45
import Verif.Props.C46
import Verif.Spec.Whole

namespace OneNote

open Spec Spec.StoreContents

theorem holds_iff {data : Bytes} {p : Packaging} :
    Contains data p ↔ Packaging.parse.run data = .ok p := by
  unfold P.run
  constructor
  · rintro ⟨a, b, c, d, si, schema, es, bs, rest, h, hd, hp⟩
    rw [(C45_accepted_exactly data rest p).2 ⟨a, b, c, d, si, schema, es, bs, h, hd, hp⟩]
  · intro h
    cases hp : Packaging.parse data with
    | error e => rw [hp] at h; cases h
    | ok x =>
      obtain ⟨q, rest⟩ := x
      rw [hp] at h
      cases h
      obtain ⟨a, b, c, d, si, schema, es, bs, h, hd, hp⟩ := (C45_accepted_exactly data rest _).1 hp
      exact ⟨a, b, c, d, si, schema, es, bs, rest, h, hd, hp⟩

theorem keyed_of_run {data : Bytes} {p : Packaging} (h : Packaging.parse.run data = .ok p) :
    Keyed p := by
  unfold P.run at h
  cases hp : Packaging.parse data with
  | error e => rw [hp] at h; cases h
  | ok x =>
    rw [hp] at h
    cases h
    exact keyed_of_parse hp

theorem readStore_sound {ord : Order} {data : Bytes} {s : Store} (h : readStore ord data = .ok s) :
    FileStore data s := by
  unfold readStore at h
  obtain ⟨p, hp, hs⟩ := Res.bind_ok_iff.1 h
  exact ⟨p, holds_iff.2 hp, store_sound (keyed_of_run hp) hs⟩

theorem readStore_complete {data : Bytes} {s : Store} (hu : PlainFile data) (h : FileStore data s)
    (ord : Order) : ∃ s', readStore ord data = .ok s' ∧ SameContents s s' := by
  obtain ⟨p, hp, hs⟩ := h
  have hr := holds_iff.1 hp
  obtain ⟨s', hs', e⟩ := store_complete (keyed_of_run hr) (hu p hp) hs ord
  exact ⟨s', Res.bind_ok_iff.2 ⟨p, hr, hs'⟩, e⟩

end OneNote
