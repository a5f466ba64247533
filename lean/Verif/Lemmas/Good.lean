/-
Closure properties of "prefix determined, never out of fuel, never panicking".
-/
import Verif.Lemmas.Header
import Verif.Spec.Prefix
import Verif.Model.Container

namespace OneNote

open Spec

variable {α β σ : Type}

/-- Prefix determined and never `fuel` or `panic`. -/
structure Good (p : P α) : Prop where
  pre : PrefixDetermined p
  noFuel : ∀ s, p s ≠ .error .fuel
  noPanic : ∀ s, p s ≠ .error .panic

/-- Consumes at least one byte when it succeeds. -/
def Eats (p : P α) : Prop := ∀ s v r, p s = .ok (v, r) → r.length < s.length

/-- Never gives bytes back. -/
def NonInc (p : P α) : Prop := ∀ s v r, p s = .ok (v, r) → r.length ≤ s.length

theorem Eats.nonInc {p : P α} (h : Eats p) : NonInc p := fun s v r hp => by
  have := h s v r hp; omega

theorem Good.nonInc {p : P α} (h : Good p) : NonInc p := by
  intro s v r hp
  obtain ⟨c, rfl, -⟩ := h.pre s v r hp
  simp

theorem Eats.bind_left {p : P α} {f : α → P β} (hp : Eats p) (hf : ∀ a, NonInc (f a)) :
    Eats (p >>= f) := by
  intro s v r h
  rw [P.bind_eq_ok] at h
  obtain ⟨a, r', h1, h2⟩ := h
  have := hp _ _ _ h1
  have := hf a _ _ _ h2
  omega

theorem Eats.bind_right {p : P α} {f : α → P β} (hp : NonInc p) (hf : ∀ a, Eats (f a)) :
    Eats (p >>= f) := by
  intro s v r h
  rw [P.bind_eq_ok] at h
  obtain ⟨a, r', h1, h2⟩ := h
  have := hp _ _ _ h1
  have := hf a _ _ _ h2
  omega

theorem NonInc.bind {p : P α} {f : α → P β} (hp : NonInc p) (hf : ∀ a, NonInc (f a)) :
    NonInc (p >>= f) := by
  intro s v r h
  rw [P.bind_eq_ok] at h
  obtain ⟨a, r', h1, h2⟩ := h
  have := hp _ _ _ h1
  have := hf a _ _ _ h2
  omega

theorem Good.pure (a : α) : Good (pure a : P α) where
  pre := by
    intro s v r h
    cases h
    exact ⟨[], rfl, fun t => rfl, fun q u h hu => by simp at h; exact absurd h.2 hu⟩
  noFuel := fun s h => by cases h
  noPanic := fun s h => by cases h

theorem Good.fail (e : Err) (h1 : e ≠ .fuel) (h2 : e ≠ .panic) : Good (P.fail e : P α) where
  pre := by intro s v r h; cases h
  noFuel := fun s h => by cases h; exact h1 rfl
  noPanic := fun s h => by cases h; exact h2 rfl

theorem Good.ofOption (e : Err) (h1 : e ≠ .fuel) (h2 : e ≠ .panic) (o : Option α) :
    Good (P.ofOption e o) := by
  cases o with
  | none => exact Good.fail e h1 h2
  | some a => exact Good.pure a

theorem append_split {q u c1 c2 : Bytes} (h : c1 ++ c2 = q ++ u) :
    (∃ w, c1 = q ++ w ∧ u = w ++ c2) ∨ (∃ q2, q = c1 ++ q2 ∧ c2 = q2 ++ u) := by
  rw [List.append_eq_append_iff] at h
  rcases h with ⟨a, h1, h2⟩ | ⟨a, h1, h2⟩
  · exact .inr ⟨a, h1, h2⟩
  · exact .inl ⟨a, h1, h2⟩

theorem PrefixDetermined.bind {p : P α} {f : α → P β} (hp : PrefixDetermined p)
    (hf : ∀ a, PrefixDetermined (f a)) : PrefixDetermined (p >>= f) := by
  intro s v r h
  rw [P.bind_eq_ok] at h
  obtain ⟨a, r', h1, h2⟩ := h
  obtain ⟨c1, rfl, e1, q1⟩ := hp _ _ _ h1
  obtain ⟨c2, rfl, e2, q2⟩ := hf a _ _ _ h2
  refine ⟨c1 ++ c2, by simp, ?_, ?_⟩
  · intro t
    rw [List.append_assoc, P.bind_ok (e1 _), e2]
  · intro q u hqu hu
    rcases append_split hqu with ⟨w, h1, h2⟩ | ⟨q', h1, h2⟩
    · by_cases hw : w = []
      · subst hw
        simp only [List.append_nil] at h1
        subst h1
        have := e1 []
        simp only [List.append_nil] at this
        rw [P.bind_ok this]
        exact q2 [] u (by simpa using h2.symm) hu
      · exact P.bind_err (q1 q w h1 hw)
    · subst h1
      rw [P.bind_ok (e1 _)]
      exact q2 q' u h2 hu

theorem Good.bind {p : P α} {f : α → P β} (hp : Good p) (hf : ∀ a, Good (f a)) :
    Good (p >>= f) where
  pre := PrefixDetermined.bind hp.pre fun a => (hf a).pre
  noFuel := by
    intro s h
    rw [P.bind_apply] at h
    cases hs : p s with
    | error e => rw [hs] at h; cases h; exact hp.noFuel s hs
    | ok x => rw [hs] at h; exact (hf _).noFuel _ h
  noPanic := by
    intro s h
    rw [P.bind_apply] at h
    cases hs : p s with
    | error e => rw [hs] at h; cases h; exact hp.noPanic s hs
    | ok x => rw [hs] at h; exact (hf _).noPanic _ h

theorem Good.ite {c : Prop} [Decidable c] {p q : P α} (hp : Good p) (hq : Good q) :
    Good (if c then p else q) := by split <;> assumption

theorem Eats.ite {c : Prop} [Decidable c] {p q : P α} (hp : Eats p) (hq : Eats q) :
    Eats (if c then p else q) := by split <;> assumption

theorem Good.getLE (n : Nat) : Good (getLE n) where
  pre := by
    intro s v r h
    rw [getLE_eq_ok] at h
    obtain ⟨hv, rfl⟩ := h
    refine ⟨leBytes n v, rfl, fun t => getLE_leBytes_lt hv t, ?_⟩
    intro q u hqu hu
    have : q.length < n := by
      have := congrArg List.length hqu
      simp at this
      have : u.length ≠ 0 := by simpa using hu
      omega
    simp [OneNote.getLE, this]
  noFuel := by intro s h; unfold OneNote.getLE at h; split at h <;> cases h
  noPanic := by intro s h; unfold OneNote.getLE at h; split at h <;> cases h

theorem Eats.getLE (n : Nat) (hn : 0 < n) : Eats (getLE n) := by
  intro s v r h
  rw [getLE_eq_ok] at h
  obtain ⟨hv, rfl⟩ := h
  simp [hn]

theorem Good.readN (n : Nat) : Good (readN n) where
  pre := by
    intro s v r h
    rw [readN_eq_ok] at h
    obtain ⟨hv, rfl⟩ := h
    refine ⟨v, rfl, fun t => readN_append' n v t hv, ?_⟩
    intro q u hqu hu
    have : q.length < n := by
      have := congrArg List.length hqu
      simp at this
      have : u.length ≠ 0 := by simpa using hu
      omega
    simp [OneNote.readN, this]
  noFuel := by intro s h; unfold OneNote.readN at h; split at h <;> cases h
  noPanic := by intro s h; unfold OneNote.readN at h; split at h <;> cases h

theorem advance_eq (n : Nat) (s : Bytes) : advance n s = (readN n >>= fun _ => pure ()) s := by
  unfold advance
  rw [P.bind_apply]
  unfold readN
  split <;> rfl

theorem Good.congr {p q : P α} (h : ∀ s, p s = q s) (hq : Good q) : Good p := by
  have : p = q := funext h
  rw [this]; exact hq

theorem Good.advance (n : Nat) : Good (advance n) :=
  Good.congr (advance_eq n) (Good.bind (Good.readN n) fun _ => Good.pure _)

theorem Eats.advance (n : Nat) (hn : 0 < n) : Eats (advance n) := by
  intro s v r h
  unfold OneNote.advance at h
  split at h
  · cases h
  · cases h; simp; omega

theorem NonInc.pure (a : α) : NonInc (pure a : P α) := (Good.pure a).nonInc

theorem Eats.fail (e : Err) : Eats (P.fail e : P α) := by intro s v r h; cases h

/-- A peek followed by a parser that consumes something. -/
theorem Good.peek {f : Nat → P α} (hf : ∀ b, b < 256 → Good (f b))
    (he : ∀ b, b < 256 → Eats (f b)) : Good (peekU8 >>= f) where
  pre := by
    intro s v r h
    rw [P.bind_eq_ok] at h
    obtain ⟨b, r', hp, h⟩ := h
    obtain ⟨rfl, x, t, hs, hb⟩ := peekU8_eq_ok hp
    have hlt : b < 256 := by rw [hb]; exact x.toNat_lt
    obtain ⟨c, hc, e1, q1⟩ := (hf b hlt).pre _ _ _ h
    have hl := he b hlt _ _ _ h
    have hne : c ≠ [] := by
      rintro rfl
      rw [hc] at hl; simp at hl
    obtain ⟨y, c', rfl⟩ := List.exists_cons_of_ne_nil hne
    rw [hs] at hc
    simp only [List.cons_append, List.cons.injEq] at hc
    obtain ⟨rfl, rfl⟩ := hc
    subst hb
    refine ⟨x :: c', hs, ?_, ?_⟩
    · intro t
      rw [List.cons_append, P.bind_ok (peekU8_cons _ _)]
      exact e1 t
    · intro q u hqu hu
      cases q with
      | nil => exact P.bind_err rfl
      | cons z q =>
        have := hqu
        simp only [List.cons_append, List.cons.injEq] at this
        obtain ⟨rfl, -⟩ := this
        rw [P.bind_ok (peekU8_cons _ _)]
        exact q1 _ u hqu hu
  noFuel := by
    intro s h
    cases s with
    | nil => cases h
    | cons b t =>
      rw [P.bind_ok (peekU8_cons _ _)] at h
      exact (hf _ b.toNat_lt).noFuel _ h
  noPanic := by
    intro s h
    cases s with
    | nil => cases h
    | cons b t =>
      rw [P.bind_ok (peekU8_cons _ _)] at h
      exact (hf _ b.toNat_lt).noPanic _ h

theorem Eats.peek {f : Nat → P α} (he : ∀ b, Eats (f b)) : Eats (peekU8 >>= f) := by
  intro s v r h
  rw [P.bind_eq_ok] at h
  obtain ⟨b, r', hp, h⟩ := h
  obtain ⟨rfl, -⟩ := peekU8_eq_ok hp
  exact he b _ _ _ h

theorem Eats.congr {p q : P α} (h : ∀ s, p s = q s) (hq : Eats q) : Eats p := by
  have : p = q := funext h
  rw [this]; exact hq

theorem Good.replicateP {p : P α} (hp : Good p) (n : Nat) : Good (replicateP p n) := by
  induction n with
  | zero => exact Good.pure _
  | succ n ih =>
    exact Good.bind hp fun a => Good.bind ih fun as => Good.pure _

/-! ### The loop -/

/-- The loop including its end header. -/
def loopEnd (ty : ObjectType) (body : σ → P σ) : Nat → σ → P σ
  | 0, _ => P.fail .fuel
  | n + 1, acc => peekU8 >>= fun b =>
    if (decide (b &&& 0b11 = 0x1) && decide (b >>> 2 = ty.code)) = true then
      ObjectHeader.tryParseEnd8 ty >>= fun _ => pure acc
    else body acc >>= loopEnd ty body n

theorem loopEnd_eq (ty : ObjectType) (body : σ → P σ) (n : Nat) (acc : σ) :
    (loopUntilEnd8 ty body n acc >>= fun a => ObjectHeader.tryParseEnd8 ty >>= fun _ => pure a)
      = loopEnd ty body n acc := by
  induction n generalizing acc with
  | zero => rfl
  | succ n ih =>
    unfold loopUntilEnd8 loopEnd ObjectHeader.hasEnd8
    simp only [P.bind_assoc, P.pure_bind]
    congr 1
    funext b
    split
    · rfl
    · rw [P.bind_assoc]
      congr 1
      funext a
      exact ih a

theorem untilEnd8_eq (ty : ObjectType) (body : σ → P σ) (acc : σ) (s : Bytes) :
    untilEnd8 ty body acc s = loopEnd ty body (s.length + 1) acc s := by
  rw [← loopEnd_eq]
  rfl

theorem Good.tryParseEnd8 (ty : ObjectType) : Good (ObjectHeader.tryParseEnd8 ty) := by
  unfold ObjectHeader.tryParseEnd8 ObjectHeader.tryParseEnd ObjectHeader.parseEnd8 getU8
  refine Good.bind (Good.bind (Good.getLE 1) fun d => ?_) fun t => ?_
  · exact Good.ite (Good.fail _ (by decide) (by decide)) (Good.ofOption _ (by decide) (by decide) _)
  · exact Good.ite (Good.pure _) (Good.fail _ (by decide) (by decide))

theorem Eats.tryParseEnd8 (ty : ObjectType) : Eats (ObjectHeader.tryParseEnd8 ty) := by
  unfold ObjectHeader.tryParseEnd8 ObjectHeader.tryParseEnd ObjectHeader.parseEnd8 getU8
  refine Eats.bind_left (Eats.bind_left (Eats.getLE 1 (by decide)) fun d => ?_) fun t => ?_
  · exact (Good.ite (Good.fail _ (by decide) (by decide))
      (Good.ofOption _ (by decide) (by decide) _)).nonInc
  · exact (Good.ite (Good.pure _) (Good.fail _ (by decide) (by decide))).nonInc

theorem loopEnd_eats (ty : ObjectType) (body : σ → P σ)
    (hb : ∀ a, Good (body a)) (n : Nat) (acc : σ) : Eats (loopEnd ty body n acc) := by
  induction n generalizing acc with
  | zero => exact Eats.fail _
  | succ n ih =>
    unfold loopEnd
    refine Eats.peek fun b => Eats.ite ?_ ?_
    · exact Eats.bind_left (Eats.tryParseEnd8 ty) fun _ => NonInc.pure _
    · exact Eats.bind_right (hb acc).nonInc fun a => ih a

theorem PrefixDetermined.peek {f : Nat → P α} (hf : ∀ b, PrefixDetermined (f b))
    (he : ∀ b, Eats (f b)) : PrefixDetermined (peekU8 >>= f) := by
  intro s v r h
  rw [P.bind_eq_ok] at h
  obtain ⟨b, r', hp, h⟩ := h
  obtain ⟨rfl, x, t, hs, hb⟩ := peekU8_eq_ok hp
  obtain ⟨c, hc, e1, q1⟩ := (hf b) _ _ _ h
  have hl := he b _ _ _ h
  have hne : c ≠ [] := by
    rintro rfl
    rw [hc] at hl; simp at hl
  obtain ⟨y, c', rfl⟩ := List.exists_cons_of_ne_nil hne
  rw [hs] at hc
  simp only [List.cons_append, List.cons.injEq] at hc
  obtain ⟨rfl, rfl⟩ := hc
  subst hb
  refine ⟨x :: c', hs, ?_, ?_⟩
  · intro t
    rw [List.cons_append, P.bind_ok (peekU8_cons _ _)]
    exact e1 t
  · intro q u hqu hu
    cases q with
    | nil => exact P.bind_err rfl
    | cons z q =>
      have := hqu
      simp only [List.cons_append, List.cons.injEq] at this
      obtain ⟨rfl, -⟩ := this
      rw [P.bind_ok (peekU8_cons _ _)]
      exact q1 _ u hqu hu

theorem loopEnd_pre (ty : ObjectType) (body : σ → P σ)
    (hb : ∀ a, Good (body a)) (n : Nat) (acc : σ) : PrefixDetermined (loopEnd ty body n acc) := by
  induction n generalizing acc with
  | zero => intro s v r h; cases h
  | succ n ih =>
    have he := loopEnd_eats ty body hb
    unfold loopEnd
    refine PrefixDetermined.peek (fun b => ?_) fun b => ?_
    · split
      · exact (Good.bind (Good.tryParseEnd8 ty) fun _ => Good.pure _).pre
      · exact PrefixDetermined.bind (hb acc).pre fun a => ih a
    · exact Eats.ite (Eats.bind_left (Eats.tryParseEnd8 ty) fun _ => NonInc.pure _)
        (Eats.bind_right (hb acc).nonInc fun a => he n a)

/-- Above the input length the fuel does not matter and is never used up. -/
theorem loopEnd_fuel (ty : ObjectType) (body : σ → P σ)
    (hb : ∀ a, Good (body a)) (he : ∀ a, Eats (body a)) (n m : Nat) (acc : σ) (s : Bytes)
    (hn : s.length < n) (hm : s.length < m) :
    loopEnd ty body n acc s = loopEnd ty body m acc s ∧
      loopEnd ty body n acc s ≠ .error .fuel := by
  induction n generalizing m acc s with
  | zero => omega
  | succ n ih =>
    cases m with
    | zero => omega
    | succ m =>
      unfold loopEnd
      cases s with
      | nil => exact ⟨rfl, by intro h; cases h⟩
      | cons x t =>
        simp only [P.bind_ok (peekU8_cons x t)]
        split
        · exact ⟨rfl, (Good.bind (Good.tryParseEnd8 ty) fun _ => Good.pure _).noFuel _⟩
        · cases hbd : body acc (x :: t) with
          | error e =>
            simp only [P.bind_err hbd]
            exact ⟨trivial, fun h => (hb acc).noFuel _ (by rw [hbd, h])⟩
          | ok w =>
            obtain ⟨a, r⟩ := w
            simp only [P.bind_ok hbd]
            have := he acc _ _ _ hbd
            exact ih m a r (by omega) (by omega)

theorem loopEnd_noPanic (ty : ObjectType) (body : σ → P σ)
    (hb : ∀ a, Good (body a)) (n : Nat) (acc : σ) (s : Bytes) :
    loopEnd ty body n acc s ≠ .error .panic := by
  induction n generalizing acc s with
  | zero => intro h; cases h
  | succ n ih =>
    unfold loopEnd
    cases s with
    | nil => intro h; cases h
    | cons x t =>
      rw [P.bind_ok (peekU8_cons x t)]
      split
      · exact (Good.bind (Good.tryParseEnd8 ty) fun _ => Good.pure _).noPanic _
      · cases hbd : body acc (x :: t) with
        | error e =>
          rw [P.bind_err hbd]
          exact fun h => (hb acc).noPanic _ (by rw [hbd, h])
        | ok w =>
          obtain ⟨a, r⟩ := w
          rw [P.bind_ok hbd]
          exact ih a r

theorem Good.untilEnd8 (ty : ObjectType) {body : σ → P σ}
    (hb : ∀ a, Good (body a)) (he : ∀ a, Eats (body a)) (acc : σ) :
    Good (untilEnd8 ty body acc) where
  pre := by
    intro s v r h
    rw [untilEnd8_eq] at h
    obtain ⟨c, hs, e1, q1⟩ := loopEnd_pre ty body hb _ acc _ _ _ h
    refine ⟨c, hs, ?_, ?_⟩
    · intro t
      rw [untilEnd8_eq]
      let N := s.length + 1 + (c ++ t).length + 1
      have hN : loopEnd ty body N acc s = .ok (v, r) := by
        rw [← h]
        exact (loopEnd_fuel ty body hb he N (s.length + 1) acc s (by omega) (by omega)).1
      obtain ⟨c', hs', e1', -⟩ := loopEnd_pre ty body hb N acc _ _ _ hN
      have hcc : c' = c := by
        rw [hs] at hs'
        exact (List.append_cancel_right hs').symm
      rw [(loopEnd_fuel ty body hb he ((c ++ t).length + 1) N acc (c ++ t) (by omega)
        (by omega)).1, ← hcc]
      exact e1' t
    · intro q u hqu hu
      have hl : q.length < s.length + 1 := by
        rw [hs, hqu]; simp; omega
      rw [untilEnd8_eq, (loopEnd_fuel ty body hb he (q.length + 1) (s.length + 1) acc q (by omega)
        hl).1]
      exact q1 q u hqu hu
  noFuel := by
    intro s
    rw [untilEnd8_eq]
    exact (loopEnd_fuel ty body hb he _ (s.length + 1) acc s (by omega) (by omega)).2
  noPanic := by
    intro s
    rw [untilEnd8_eq]
    exact loopEnd_noPanic ty body hb _ acc s

theorem Eats.untilEnd8 (ty : ObjectType) {body : σ → P σ}
    (hb : ∀ a, Good (body a)) (acc : σ) : Eats (untilEnd8 ty body acc) := by
  intro s v r h
  rw [untilEnd8_eq] at h
  exact loopEnd_eats ty body hb _ acc _ _ _ h

/-! ### The container parsers -/

theorem Good.compact : Good CompactU64.parse := by
  refine Good.congr CompactU64.parse_eq (Good.peek (fun b hb => ?_) fun b hb => ?_)
  · repeat' first
      | exact Good.getLE _
      | exact Good.pure _
      | exact Good.advance _
      | exact Good.fail _ (by decide) (by decide)
      | apply Good.ite
      | apply Good.bind
      | intro _
  · repeat' first
      | exact Eats.getLE _ (by decide)
      | exact NonInc.pure _
      | exact (Good.getLE _).nonInc
      | exact Eats.advance _ (by decide)
      | exact Eats.fail _
      | apply Eats.ite
      | apply Eats.bind_left
      | intro _

theorem Eats.compact : Eats CompactU64.parse := by
  refine Eats.congr CompactU64.parse_eq (Eats.peek fun b => ?_)
  repeat' first
    | exact Eats.getLE _ (by decide)
    | exact NonInc.pure _
    | exact (Good.getLE _).nonInc
    | exact Eats.advance _ (by decide)
    | exact Eats.fail _
    | apply Eats.ite
    | apply Eats.bind_left
    | intro _

theorem Good.guid : Good Guid.parse := Good.bind (Good.getLE 16) fun _ => Good.pure _

theorem Good.exguid : Good ExGuid.parse := by
  refine Good.congr ExGuid.parse_eq ?_
  repeat' first
    | exact Good.getLE _
    | exact Good.guid
    | exact Good.pure _
    | exact Good.fail _ (by decide) (by decide)
    | apply Good.ite
    | apply Good.bind
    | intro _

theorem Eats.exguid : Eats ExGuid.parse := by
  refine Eats.congr ExGuid.parse_eq (Eats.bind_left (Eats.getLE 1 (by decide)) fun d =>
    Good.nonInc ?_)
  repeat' first
    | exact Good.getLE _
    | exact Good.guid
    | exact Good.pure _
    | exact Good.fail _ (by decide) (by decide)
    | apply Good.ite
    | apply Good.bind
    | intro _

theorem Good.cellId : Good CellId.parse := by
  exact Good.bind Good.exguid fun _ => Good.bind Good.exguid fun _ => Good.pure _

theorem Eats.cellId : Eats CellId.parse := by
  exact Eats.bind_left Eats.exguid fun _ => (Good.bind Good.exguid fun _ => Good.pure _).nonInc

theorem Good.serial : Good SerialNumber.parse := by
  unfold SerialNumber.parse
  refine Good.bind (Good.getLE 1) fun _ => Good.ite (Good.pure _) ?_
  exact Good.bind Good.guid fun _ => Good.bind (Good.getLE 8) fun _ => Good.pure _

theorem Good.exguidArray : Good ExGuid.parseArray :=
  Good.bind Good.compact fun _ => Good.replicateP Good.exguid _

theorem Good.cellIdArray : Good CellId.parseArray :=
  Good.bind Good.compact fun _ => Good.replicateP Good.cellId _

theorem Good.binaryItem : Good BinaryItem.parse :=
  Good.bind Good.compact fun _ => Good.readN _

theorem Good.parse16 : Good ObjectHeader.parse16 := by
  refine Good.congr ObjectHeader.parse16_eq ?_
  exact Good.bind (Good.getLE 2) fun _ => Good.ite (Good.fail _ (by decide) (by decide))
    (Good.bind (Good.ofOption _ (by decide) (by decide) _) fun _ => Good.pure _)

theorem Eats.parse16 : Eats ObjectHeader.parse16 := by
  refine Eats.congr ObjectHeader.parse16_eq ?_
  exact Eats.bind_left (Eats.getLE 2 (by decide)) fun _ => (Good.ite
    (Good.fail _ (by decide) (by decide))
    (Good.bind (Good.ofOption _ (by decide) (by decide) _) fun _ => Good.pure _)).nonInc

theorem Good.parse32 : Good ObjectHeader.parse32 := by
  refine Good.congr ObjectHeader.parse32_eq ?_
  exact Good.bind (Good.getLE 4) fun _ => Good.ite (Good.fail _ (by decide) (by decide))
    (Good.bind (Good.ofOption _ (by decide) (by decide) _) fun _ =>
      Good.ite (Good.bind Good.compact fun _ => Good.pure _) (Good.pure _))

theorem Eats.parse32 : Eats ObjectHeader.parse32 := by
  refine Eats.congr ObjectHeader.parse32_eq ?_
  exact Eats.bind_left (Eats.getLE 4 (by decide)) fun _ =>
    (Good.ite (Good.fail _ (by decide) (by decide))
    (Good.bind (Good.ofOption _ (by decide) (by decide) _) fun _ =>
      Good.ite (Good.bind Good.compact fun _ => Good.pure _) (Good.pure _))).nonInc

theorem Good.header : Good ObjectHeader.parse := by
  unfold ObjectHeader.parse
  exact Good.peek
    (fun _ _ => Good.ite Good.parse16 (Good.ite Good.parse32 (Good.fail _ (by decide) (by decide))))
    (fun _ _ => Eats.ite Eats.parse16 (Eats.ite Eats.parse32 (Eats.fail _)))

theorem Eats.header : Eats ObjectHeader.parse := by
  unfold ObjectHeader.parse
  exact Eats.peek
    (fun _ => Eats.ite Eats.parse16 (Eats.ite Eats.parse32 (Eats.fail _)))

theorem Good.tryParseStart (ty : ObjectType) {p : P ObjectHeader} (hp : Good p) :
    Good (ObjectHeader.tryParseStart ty p) :=
  Good.bind hp fun _ => Good.ite (Good.pure _) (Good.fail _ (by decide) (by decide))

theorem Eats.tryParseStart (ty : ObjectType) {p : P ObjectHeader} (hp : Eats p) :
    Eats (ObjectHeader.tryParseStart ty p) :=
  Eats.bind_left hp fun _ =>
    (Good.ite (Good.pure _) (Good.fail _ (by decide) (by decide))).nonInc

theorem Good.tryParse (ty : ObjectType) : Good (ObjectHeader.tryParse ty) :=
  Good.tryParseStart ty Good.header
theorem Good.tryParse16 (ty : ObjectType) : Good (ObjectHeader.tryParse16 ty) :=
  Good.tryParseStart ty Good.parse16
theorem Good.tryParse32 (ty : ObjectType) : Good (ObjectHeader.tryParse32 ty) :=
  Good.tryParseStart ty Good.parse32

theorem Good.tryParseEnd16 (ty : ObjectType) : Good (ObjectHeader.tryParseEnd16 ty) := by
  unfold ObjectHeader.tryParseEnd16 ObjectHeader.tryParseEnd ObjectHeader.parseEnd16 getU16
  refine Good.bind (Good.bind (Good.getLE 2) fun d => ?_) fun t => ?_
  · exact Good.ite (Good.fail _ (by decide) (by decide)) (Good.ofOption _ (by decide) (by decide) _)
  · exact Good.ite (Good.pure _) (Good.fail _ (by decide) (by decide))

/-- Discharges `Good` goals for straight-line parsers. -/
macro "good" : tactic => `(tactic|
  repeat' first
    | exact Good.pure _
    | exact Good.fail _ (by decide) (by decide)
    | exact Good.ofOption _ (by decide) (by decide) _
    | exact Good.getLE _
    | exact Good.readN _
    | exact Good.guid
    | exact Good.compact
    | exact Good.exguid
    | exact Good.cellId
    | exact Good.serial
    | exact Good.exguidArray
    | exact Good.cellIdArray
    | exact Good.binaryItem
    | exact Good.header
    | exact Good.parse16
    | exact Good.tryParse _
    | exact Good.tryParse16 _
    | exact Good.tryParse32 _
    | exact Good.tryParseEnd8 _
    | exact Good.tryParseEnd16 _
    | assumption
    | apply Good.ite
    | apply Good.bind
    | intro _
    | split)

theorem Good.storageIndexItem (si : StorageIndex) : Good (StorageIndex.parseItem si) := by
  unfold StorageIndex.parseItem; good

theorem Eats.storageIndexItem (si : StorageIndex) : Eats (StorageIndex.parseItem si) := by
  unfold StorageIndex.parseItem
  refine Eats.bind_left Eats.parse16 fun _ => Good.nonInc ?_
  good

theorem Good.storageIndex : Good StorageIndex.parse :=
  Good.untilEnd8 _ Good.storageIndexItem Eats.storageIndexItem _

theorem Good.storageManifestItem (m : Map ExGuid CellId) : Good (StorageManifest.parseItem m) := by
  unfold StorageManifest.parseItem; good

theorem Eats.storageManifestItem (m : Map ExGuid CellId) : Eats (StorageManifest.parseItem m) := by
  unfold StorageManifest.parseItem
  refine Eats.bind_left (Eats.tryParseStart _ Eats.parse16) fun _ => Good.nonInc ?_
  good

theorem Good.storageManifest : Good StorageManifest.parse := by
  have := Good.untilEnd8 .dataElement Good.storageManifestItem Eats.storageManifestItem []
  unfold StorageManifest.parse; good

theorem Good.cellManifest : Good CellManifest.parse := by
  unfold CellManifest.parse; good

theorem Good.revisionManifestItem (m : RevisionManifest) : Good (RevisionManifest.parseItem m) := by
  unfold RevisionManifest.parseItem; good

theorem Eats.revisionManifestItem (m : RevisionManifest) : Eats (RevisionManifest.parseItem m) := by
  unfold RevisionManifest.parseItem
  refine Eats.bind_left Eats.parse16 fun _ => Good.nonInc ?_
  good

theorem Good.revisionManifest : Good RevisionManifest.parse := by
  unfold RevisionManifest.parse
  refine Good.bind (Good.tryParse16 _) fun _ => Good.bind Good.exguid fun _ =>
    Good.bind Good.exguid fun _ => ?_
  exact Good.untilEnd8 _ Good.revisionManifestItem Eats.revisionManifestItem _

theorem Good.fragment : Good Fragment.parse := by
  unfold Fragment.parse; good

theorem Good.objectDataBlob : Good ObjectDataBlob.parse := by
  unfold ObjectDataBlob.parse; good

theorem Good.declaration (ds : List Declaration) : Good (ObjectGroup.parseDeclaration ds) := by
  unfold ObjectGroup.parseDeclaration; good

theorem Eats.declaration (ds : List Declaration) : Eats (ObjectGroup.parseDeclaration ds) := by
  unfold ObjectGroup.parseDeclaration
  refine Eats.bind_left Eats.header fun _ => Good.nonInc ?_
  good

theorem Good.declarations : Good ObjectGroup.parseDeclarations := by
  unfold ObjectGroup.parseDeclarations
  exact Good.bind (Good.tryParse _) fun _ => Good.untilEnd8 _ Good.declaration Eats.declaration _

theorem Good.metadataItem (ms : List ChangeFrequency) : Good (ObjectGroup.parseMetadataItem ms) := by
  unfold ObjectGroup.parseMetadataItem; good

theorem Eats.metadataItem (ms : List ChangeFrequency) :
    Eats (ObjectGroup.parseMetadataItem ms) := by
  unfold ObjectGroup.parseMetadataItem
  refine Eats.bind_left (Eats.tryParseStart _ Eats.parse32) fun _ => Good.nonInc ?_
  good

theorem Good.metadata : Good ObjectGroup.parseMetadata :=
  Good.untilEnd8 _ Good.metadataItem Eats.metadataItem _

theorem Good.dataItem (os : List GroupData) : Good (ObjectGroup.parseDataItem os) := by
  unfold ObjectGroup.parseDataItem; good

theorem Eats.dataItem (os : List GroupData) : Eats (ObjectGroup.parseDataItem os) := by
  unfold ObjectGroup.parseDataItem
  refine Eats.bind_left Eats.header fun _ => Good.nonInc ?_
  good

theorem Good.groupData : Good ObjectGroup.parseData :=
  Good.untilEnd8 _ Good.dataItem Eats.dataItem _

theorem Good.metadataOpt : Good ObjectGroup.parseMetadataOpt := by
  have := Good.metadata
  unfold ObjectGroup.parseMetadataOpt; good

theorem Good.objectGroup : Good ObjectGroup.parse := by
  have := Good.declarations
  have := Good.metadataOpt
  have := Good.groupData
  unfold ObjectGroup.parse; good

theorem Good.element (pkg : Package) : Good (Package.parseElement pkg) := by
  have := Good.storageIndex
  have := Good.storageManifest
  have := Good.cellManifest
  have := Good.revisionManifest
  have := Good.objectGroup
  have := Good.fragment
  have := Good.objectDataBlob
  unfold Package.parseElement; good

theorem Eats.element (pkg : Package) : Eats (Package.parseElement pkg) := by
  have := Good.storageIndex
  have := Good.storageManifest
  have := Good.cellManifest
  have := Good.revisionManifest
  have := Good.objectGroup
  have := Good.fragment
  have := Good.objectDataBlob
  unfold Package.parseElement
  refine Eats.bind_left (Eats.tryParseStart _ Eats.parse16) fun _ => Good.nonInc ?_
  good

theorem Good.package : Good Package.parse := by
  have := Good.untilEnd8 .dataElementPackage Good.element Eats.element Package.empty
  unfold Package.parse getU8; good

/-- Consumes exactly `n` bytes when it succeeds. -/
def Exact (n : Nat) (p : P α) : Prop := ∀ s v r, p s = .ok (v, r) → s.length = n + r.length

theorem Exact.pure (a : α) : Exact 0 (pure a : P α) := by intro s v r h; cases h; simp
theorem Exact.fail (n : Nat) (e : Err) : Exact n (P.fail e : P α) := by intro s v r h; cases h
theorem Exact.getLE (n : Nat) : Exact n (getLE n) := by
  intro s v r h
  rw [getLE_eq_ok] at h
  obtain ⟨_, rfl⟩ := h
  simp

theorem Exact.bind {m n : Nat} {p : P α} {f : α → P β} (hp : Exact m p) (hf : ∀ a, Exact n (f a)) :
    Exact (m + n) (p >>= f) := by
  intro s v r h
  rw [P.bind_eq_ok] at h
  obtain ⟨a, r', h1, h2⟩ := h
  have := hp _ _ _ h1
  have := hf a _ _ _ h2
  omega

theorem Exact.ite {n : Nat} {c : Prop} [Decidable c] {p q : P α} (hp : Exact n p)
    (hq : Exact n q) : Exact n (if c then p else q) := by split <;> assumption

theorem Exact.guid : Exact 16 Guid.parse := Exact.bind (Exact.getLE 16) fun _ => Exact.pure _

theorem Exact.version : Exact 4 Packaging.parseVersion :=
  Exact.bind (Exact.getLE 4) fun _ => Exact.ite (Exact.fail _ _) (Exact.pure _)

theorem Exact.fcr : Exact 12 Packaging.parseFcr64x32 :=
  Exact.bind (Exact.getLE 8) fun _ => Exact.bind (Exact.getLE 4) fun _ => Exact.pure _

theorem Exact.storeHeader : Exact 108 Packaging.parseStoreHeader := by
  unfold Packaging.parseStoreHeader
  exact Exact.bind Exact.version fun _ => Exact.bind Exact.version fun _ =>
    Exact.bind Exact.version fun _ => Exact.bind Exact.version fun _ =>
    Exact.bind (Exact.getLE 8) fun _ => Exact.bind (Exact.getLE 8) fun _ =>
    Exact.bind (Exact.getLE 4) fun _ => Exact.bind (Exact.getLE 4) fun _ =>
    Exact.bind (Exact.getLE 8) fun _ => Exact.bind (Exact.getLE 8) fun _ =>
    Exact.bind (Exact.getLE 4) fun _ => Exact.bind (Exact.getLE 1) fun _ =>
    Exact.bind (Exact.getLE 1) fun _ => Exact.bind (Exact.getLE 1) fun _ =>
    Exact.bind (Exact.getLE 1) fun _ => Exact.bind Exact.guid fun _ =>
    Exact.bind (Exact.getLE 4) fun _ => Exact.bind Exact.fcr fun _ => Exact.fcr

theorem Good.version : Good Packaging.parseVersion := by
  unfold Packaging.parseVersion getU32; good

theorem Good.fcr : Good Packaging.parseFcr64x32 := by
  unfold Packaging.parseFcr64x32 getU32 getU64; good

theorem Good.storeHeader : Good Packaging.parseStoreHeader := by
  have := Good.version
  have := Good.fcr
  unfold Packaging.parseStoreHeader getU32 getU64 getU8; good

/-- Seeking when `read` bytes of the file have been consumed. -/
def seekFrom (read : Nat) (log : Nat × Nat) : P Unit :=
  P.ofRes (Packaging.fcrEnd log) >>= fun e =>
    if e < read then P.fail .malformedOneStore else advance (e - read)

theorem Good.fcrEnd (log : Nat × Nat) : Good (P.ofRes (Packaging.fcrEnd log)) := by
  unfold Packaging.fcrEnd
  split
  · exact Good.pure _
  · exact Good.fail _ (by decide) (by decide)

theorem Good.seekFrom (read : Nat) (log : Nat × Nat) : Good (seekFrom read log) := by
  exact Good.bind (Good.fcrEnd log) fun _ => Good.ite (Good.fail _ (by decide) (by decide))
    (Good.advance _)

theorem seek_eq (start : Nat) (log : Nat × Nat) (s : Bytes) :
    Packaging.seekTransactionLog start log s = seekFrom (start - s.length) log s := rfl

theorem parsePackaging_eq (start : Nat) (s : Bytes) :
    Packaging.parsePackaging start s = (Packaging.parseStoreHeader >>= fun log =>
      seekFrom (start - (s.length - 108)) log >>= fun _ => Packaging.parseEmbedded) s := by
  unfold Packaging.parsePackaging
  rw [P.bind_apply, P.bind_apply]
  cases h : Packaging.parseStoreHeader s with
  | error e => rfl
  | ok w =>
    obtain ⟨log, r⟩ := w
    have := Exact.storeHeader _ _ _ h
    simp only
    rw [P.bind_apply, P.bind_apply, seek_eq, show s.length - 108 = r.length from by omega]

/-- `Packaging.parse` with the number of bytes read so far (172) made explicit. -/
def parseConst : P Packaging :=
  Guid.parse >>= fun a => Guid.parse >>= fun b => Guid.parse >>= fun c => Guid.parse >>= fun d =>
    if d = Packaging.packageStoreFormat then Packaging.parseLegacy a b c d
    else if d ≠ Packaging.revisionStoreFormat then P.fail .malformedOneStore
    else if (!c.isNil) = true then Packaging.parseLegacy a b c d
    else Packaging.parseStoreHeader >>= fun log => seekFrom 172 log >>= fun _ => Packaging.parseEmbedded

theorem parse_eq_const (s : Bytes) : Packaging.parse s = parseConst s := by
  unfold Packaging.parse parseConst
  rw [P.bind_ok (show remaining s = .ok (s.length, s) from rfl)]
  cases h1 : Guid.parse s with
  | error e => rw [P.bind_err h1, P.bind_err h1]
  | ok w1 =>
  obtain ⟨a, s1⟩ := w1
  rw [P.bind_ok h1, P.bind_ok h1]
  cases h2 : Guid.parse s1 with
  | error e => rw [P.bind_err h2, P.bind_err h2]
  | ok w2 =>
  obtain ⟨b, s2⟩ := w2
  rw [P.bind_ok h2, P.bind_ok h2]
  cases h3 : Guid.parse s2 with
  | error e => rw [P.bind_err h3, P.bind_err h3]
  | ok w3 =>
  obtain ⟨c, s3⟩ := w3
  rw [P.bind_ok h3, P.bind_ok h3]
  cases h4 : Guid.parse s3 with
  | error e => rw [P.bind_err h4, P.bind_err h4]
  | ok w4 =>
  obtain ⟨d, s4⟩ := w4
  rw [P.bind_ok h4, P.bind_ok h4]
  have e1 := Exact.guid _ _ _ h1
  have e2 := Exact.guid _ _ _ h2
  have e3 := Exact.guid _ _ _ h3
  have e4 := Exact.guid _ _ _ h4
  by_cases hd : d = Packaging.packageStoreFormat
  · rw [if_pos hd, if_pos hd]
  rw [if_neg hd, if_neg hd]
  by_cases hd : d ≠ Packaging.revisionStoreFormat
  · rw [if_pos hd, if_pos hd]
  rw [if_neg hd, if_neg hd]
  by_cases hc : (!c.isNil) = true
  · rw [if_pos hc, if_pos hc]
  rw [if_neg hc, if_neg hc, parsePackaging_eq]
  by_cases hl : 108 ≤ s4.length
  · rw [show s.length - (s4.length - 108) = 172 from by omega]
  · cases h5 : Packaging.parseStoreHeader s4 with
    | error e => rw [P.bind_err h5, P.bind_err h5]
    | ok w =>
      have := Exact.storeHeader _ _ _ h5
      omega

theorem Good.legacy (a b c d : Guid) : Good (Packaging.parseLegacy a b c d) := by
  have := Good.package
  unfold Packaging.parseLegacy getU32; good

theorem Good.embedded : Good Packaging.parseEmbedded := by
  have := Good.legacy
  exact Good.bind Good.guid fun _ => Good.bind Good.guid fun _ => Good.bind Good.guid fun _ =>
    Good.bind Good.guid fun _ => Good.legacy _ _ _ _

theorem Good.packaging : Good Packaging.parse := by
  refine Good.congr parse_eq_const ?_
  refine Good.bind Good.guid fun _ => Good.bind Good.guid fun _ => Good.bind Good.guid fun _ =>
    Good.bind Good.guid fun _ => ?_
  refine Good.ite (Good.legacy _ _ _ _) (Good.ite (Good.fail _ (by decide) (by decide))
    (Good.ite (Good.legacy _ _ _ _) ?_))
  exact Good.bind Good.storeHeader fun _ => Good.bind (Good.seekFrom _ _) fun _ => Good.embedded

end OneNote
