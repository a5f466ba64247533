/-
How Windows paths are read: the components of a spelled path.
-/
import Verif.Lemmas.Windows
import Verif.Spec.WindowsSpelling

namespace OneNote.Windows

open Spec Spec.Windows

theorem spelled_pieces {v : Bool} {names : List (Char × Text)}
    (h : ∀ x ∈ names, isSep v x.1 = true ∧ ∀ c ∈ x.2, isSep v c = false) :
    splitSep v (spelled names) = [] :: names.map Prod.snd := by
  induction names with
  | nil => rfl
  | cons x names ih =>
    obtain ⟨h1, h2⟩ := h x (.head _)
    have ih := ih fun y hy => h y (.tail _ hy)
    show splitSep v (x.1 :: (x.2 ++ spelled names)) = _
    rw [splitSep, if_pos h1]
    congr 1
    cases names with
    | nil =>
      rw [show spelled [] = [] from rfl, List.append_nil, splitSep_piece h2]
      rfl
    | cons y ys =>
      obtain ⟨k1, -⟩ := h y (.tail _ (.head _))
      have e : spelled (y :: ys) = y.1 :: (y.2 ++ spelled ys) := rfl
      rw [e, splitSep_sep k1, splitSep_piece h2]
      rw [e, splitSep, if_pos k1] at ih
      injection ih with _ ih
      rw [ih]
      rfl

theorem name_piece {v : Bool} {n : Text} (h : WFileName n) : pieceOf v n = some (.normal n) := by
  unfold pieceOf
  rw [if_neg h.1, if_neg h.2.2.2.2.1, if_neg h.2.2.2.2.2]

theorem name_seps {v : Bool} {n : Text} (h : WFileName n) : ∀ c ∈ n, isSep v c = false := by
  intro c hc
  unfold isSep
  rw [decide_eq_false (fun e : c = '\\' => h.2.2.1 (e ▸ hc)), decide_eq_false (fun e : c = '/' => h.2.1 (e ▸ hc))]
  rfl

theorem names_body {v : Bool} {names : List Text} (h : ∀ n ∈ names, WFileName n) :
    names.filterMap (pieceOf v) = names.map .normal := by
  induction names with
  | nil => rfl
  | cons n names ih =>
    rw [List.filterMap_cons, name_piece (h n (.head _)), ih fun m hm => h m (.tail _ hm)]
    rfl

theorem spelled_body {v : Bool} {names : List (Char × Text)}
    (h : ∀ x ∈ names, isSep v x.1 = true ∧ WFileName x.2) :
    (splitSep v (spelled names)).filterMap (pieceOf v) = names.map fun x => .normal x.2 := by
  rw [spelled_pieces fun x hx => ⟨(h x hx).1, name_seps (h x hx).2⟩, List.filterMap_cons]
  show (names.map Prod.snd).filterMap (pieceOf v) = _
  rw [names_body (by simpa using fun b a hb => (h (a, b) hb).2), List.map_map]
  rfl

private theorem span_loop (f : Char → Bool) (s acc : Text) :
    List.span.loop f s acc = (acc.reverse ++ s.takeWhile f, s.dropWhile f) := by
  induction s generalizing acc with
  | nil => simp [List.span.loop]
  | cons c s ih =>
    unfold List.span.loop
    cases h : f c with
    | true => simp [ih, h]
    | false => simp [h]

private theorem span_split (f : Char → Bool) (s : Text) : s.span f = (s.takeWhile f, s.dropWhile f) :=
  span_loop f s []

theorem next_end {v : Bool} {a : Text} (h : ∀ c ∈ a, isSep v c = false) : nextPiece v a = (a, []) := by
  unfold nextPiece
  rw [span_split]
  have h' : ∀ c ∈ a, (!isSep v c) = true := fun c hc => by rw [h c hc]; rfl
  show (a.takeWhile _, (a.dropWhile _).drop 1) = _
  have e := List.takeWhile_append_of_pos (l₂ := []) h'
  rw [List.append_nil] at e
  have e' := List.dropWhile_append_of_pos (l₂ := []) h'
  rw [List.append_nil] at e'
  rw [e, e']
  simp

theorem next_sep {v : Bool} {a : Text} {c : Char} {b : Text} (h : ∀ c ∈ a, isSep v c = false)
    (hc : isSep v c = true) : nextPiece v (a ++ c :: b) = (a, b) := by
  unfold nextPiece
  rw [span_split]
  have h' : ∀ c ∈ a, (!isSep v c) = true := fun c hc => by rw [h c hc]; rfl
  show ((a ++ c :: b).takeWhile _, ((a ++ c :: b).dropWhile _).drop 1) = _
  rw [List.takeWhile_append_of_pos h', List.dropWhile_append_of_pos h', List.takeWhile_cons_of_neg (by rw [hc]; decide),
    List.dropWhile_cons_of_neg (by rw [hc]; decide), List.append_nil]
  rfl

theorem next_spelled {v : Bool} {a : Text} {names : List (Char × Text)} (h : ∀ c ∈ a, isSep v c = false)
    (hn : ∀ x ∈ names, isSep v x.1 = true) : (nextPiece v (a ++ spelled names)).1 = a := by
  cases names with
  | nil => rw [show spelled [] = [] from rfl, List.append_nil, next_end h]
  | cons x xs =>
    rw [show spelled (x :: xs) = x.1 :: (x.2 ++ spelled xs) from rfl, next_sep h (hn x (.head _))]

theorem alpha_sep {d : Char} (h : d.isAlpha = true) (v : Bool) : isSep v d = false := by
  unfold isSep
  have h1 : d ≠ '\\' := fun e => by rw [e] at h; exact absurd h (by decide)
  have h2 : d ≠ '/' := fun e => by rw [e] at h; exact absurd h (by decide)
  rw [decide_eq_false h1, decide_eq_false h2]
  rfl

theorem drive_prefix {d : Char} (h : d.isAlpha = true) (rest : Text) :
    parsePrefix (d :: ':' :: rest) = some ⟨2, false, true⟩ := by
  unfold parsePrefix
  dsimp only
  rw [alpha_sep h]
  show (if startsWithDrive _ = true then _ else _) = _
  rw [if_pos (show startsWithDrive (d :: ':' :: rest) = true from h)]

theorem sep_iff {c : Char} : isSep false c = true ↔ c = '/' ∨ c = '\\' := by
  unfold isSep
  simp [or_comm]

theorem sep_verbatim {c : Char} : isSep true c = true ↔ c = '\\' := by
  unfold isSep
  simp

/-- The prefix of `\\server\share`. -/
theorem server_prefix {server share : Text} {a b c : Char} {names : List (Char × Text)}
    (ha : isSep false a = true) (hb : isSep false b = true) (hc : isSep false c = true)
    (hs : WFileName server) (hq : server.head? ≠ some '?') (hd : server.head? ≠ some '.')
    (hh : WFileName share) (hn : ∀ x ∈ names, isSep false x.1 = true) :
    parsePrefix (a :: b :: (server ++ c :: (share ++ spelled names))) =
      some ⟨2 + (server.length + (1 + share.length)), false, false⟩ := by
  have h1 : nextPiece false (server ++ c :: (share ++ spelled names)) = (server, share ++ spelled names) :=
    next_sep (name_seps hs) hc
  have h2 := next_spelled (a := share) (names := names) (name_seps (v := false) hh) hn
  have e : parsePrefix.serverPrefix (server ++ c :: (share ++ spelled names)) =
      some ⟨2 + (server.length + (1 + share.length)), false, false⟩ := by
    unfold parsePrefix.serverPrefix shareLength
    rw [h1]
    show (if (decide (server ≠ []) && decide ((nextPiece false (share ++ spelled names)).1 ≠ [])) = true then
      some (PrefixKind.mk (2 + (server.length + if (nextPiece false (share ++ spelled names)).1 = [] then 0
        else 1 + (nextPiece false (share ++ spelled names)).1.length)) false false) else none) = _
    rw [h2, if_pos (by rw [decide_eq_true hs.1, decide_eq_true hh.1]; rfl), if_neg hh.1]
  cases server with
  | nil => exact absurd rfl hs.1
  | cons x server =>
    have hx : x ≠ '?' := fun e => hq (by rw [e]; rfl)
    have hy : x ≠ '.' := fun e => hd (by rw [e]; rfl)
    rw [List.cons_append] at e ⊢
    unfold parsePrefix
    dsimp only
    rw [ha, hb, Bool.and_self, if_pos rfl]
    split
    · rename_i h; injection h with h; exact absurd h hx
    · rename_i h; injection h with h; exact absurd h hy
    · exact e

/-- A server without a share is no prefix. -/
theorem server_only {server : Text} {a b : Char}
    (ha : isSep false a = true) (hb : isSep false b = true)
    (hs : WFileName server) (hq : server.head? ≠ some '?') (hd : server.head? ≠ some '.') :
    parsePrefix (a :: b :: server) = none := by
  have e : parsePrefix.serverPrefix server = none := by
    unfold parsePrefix.serverPrefix
    rw [next_end (name_seps hs)]
    show (if (decide (server ≠ []) && decide ((nextPiece false []).1 ≠ [])) = true then _ else _) = _
    rw [if_neg (by rw [Bool.and_comm]; exact Bool.false_ne_true)]
  cases server with
  | nil => exact absurd rfl hs.1
  | cons x server =>
    have hx : x ≠ '?' := fun e => hq (by rw [e]; rfl)
    have hy : x ≠ '.' := fun e => hd (by rw [e]; rfl)
    unfold parsePrefix
    dsimp only
    rw [ha, hb, Bool.and_self, if_pos rfl]
    split
    · rename_i h; injection h with h; exact absurd h hx
    · rename_i h; injection h with h; exact absurd h hy
    · exact e

end OneNote.Windows
