/-
Property sets: prefix determined, never out of fuel, never panicking, not larger than the input.
-/
import Verif.Lemmas.PropSet

namespace OneNote

open Spec

variable {α β : Type}

theorem Good.mapP {f : α → P β} (hf : ∀ a, Good (f a)) (l : List α) : Good (mapP f l) := by
  induction l with
  | nil => exact Good.pure _
  | cons a l ih => exact Good.bind (hf a) fun b => Good.bind ih fun bs => Good.pure _

theorem Good.valueWith {set : P PropertySet} (hs : Good set) (w : Nat) :
    Good (PropertyValue.parseWith set w) := by
  unfold PropertyValue.parseWith
  generalize PropertyId.propType w = t
  split
  all_goals
    repeat' first
      | exact Good.pure _
      | exact Good.fail _ (by decide) (by decide)
      | exact Good.getLE _
      | exact Good.readN _
      | exact Good.replicateP hs _
      | exact hs
      | apply Good.bind
      | intro _

theorem Good.setWith {set : P PropertySet} (hs : Good set) : Good (PropertySet.parseWith set) :=
  Good.bind (Good.getLE 2) fun _ => Good.bind (Good.replicateP (Good.getLE 4) _) fun _ =>
    Good.bind (Good.mapP (fun _ => Good.bind (Good.valueWith hs _) fun _ => Good.pure _) _)
      fun _ => Good.pure _

/-- `PropertySet.parseFuel` with an arbitrary parser at the depth bound. -/
def PropertySet.iter (b : P PropertySet) : Nat → P PropertySet
  | 0 => b
  | n + 1 => PropertySet.parseWith (PropertySet.iter b n)

theorem PropertySet.parseFuel_eq (n : Nat) :
    PropertySet.parseFuel n = PropertySet.iter (P.fail .fuel) n := by
  induction n with
  | zero => rfl
  | succ n ih => simp only [PropertySet.parseFuel, PropertySet.iter, ih]

theorem Good.iter {b : P PropertySet} (hb : Good b) (n : Nat) : Good (PropertySet.iter b n) := by
  induction n with
  | zero => exact hb
  | succ n ih => exact Good.setWith ih

theorem OnlySets.iter {b : P PropertySet} (hb : OnlySets b) (n : Nat) :
    OnlySets (PropertySet.iter b n) := by
  induction n with
  | zero => exact hb
  | succ n ih => exact onlySets_parseWith ih

theorem OnlySets.nonInc {p : P PropertySet} (h : OnlySets p) : NonInc p := by
  intro s v r hp
  obtain ⟨es, bs, -, rfl, -⟩ := h _ _ _ hp
  simp

/-- Two parsers that agree on short inputs. -/
def AgreeBelow (k : Nat) (p q : P α) : Prop := ∀ t, t.length < k → p t = q t

theorem bind_congr_ok {p q : P α} {f g : α → P β} {s : Bytes} (h : p s = q s)
    (h' : ∀ a r, p s = .ok (a, r) → f a r = g a r) : (p >>= f) s = (q >>= g) s := by
  rw [P.bind_apply, P.bind_apply, ← h]
  cases hp : p s with
  | error e => rfl
  | ok x => obtain ⟨a, r⟩ := x; exact h' a r hp

theorem AgreeBelow.bind {k : Nat} {p q : P α} {f g : α → P β} (hp : AgreeBelow k p q)
    (hn : NonInc p) (hf : ∀ a, AgreeBelow k (f a) (g a)) : AgreeBelow k (p >>= f) (q >>= g) := by
  intro t ht
  refine bind_congr_ok (hp t ht) fun a r h => hf a r ?_
  have := hn _ _ _ h
  omega

theorem AgreeBelow.refl (k : Nat) (p : P α) : AgreeBelow k p p := fun _ _ => rfl

theorem AgreeBelow.replicateP {k : Nat} {p q : P α} (hp : AgreeBelow k p q) (hn : NonInc p)
    (n : Nat) : AgreeBelow k (replicateP p n) (replicateP q n) := by
  induction n with
  | zero => exact AgreeBelow.refl _ _
  | succ n ih =>
    refine AgreeBelow.bind hp hn fun a => AgreeBelow.bind ih ?_ fun _ => AgreeBelow.refl _ _
    intro s v r h
    clear ih
    induction n generalizing s v with
    | zero => cases h; exact Nat.le_refl _
    | succ n ih =>
      rw [replicateP_eq_ok_succ] at h
      obtain ⟨b, r', bs, h1, h2, rfl⟩ := h
      have := hn _ _ _ h1
      have := ih _ _ h2
      omega

theorem AgreeBelow.mapP {k : Nat} {f g : α → P β} (hf : ∀ a, AgreeBelow k (f a) (g a))
    (hn : ∀ a, NonInc (f a)) (l : List α) : AgreeBelow k (mapP f l) (mapP g l) := by
  induction l with
  | nil => exact AgreeBelow.refl _ _
  | cons a l ih =>
    refine AgreeBelow.bind (hf a) (hn a) fun a => AgreeBelow.bind ih ?_ fun _ => AgreeBelow.refl _ _
    intro s v r h
    clear ih
    induction l generalizing s v with
    | nil => cases h; exact Nat.le_refl _
    | cons x l ih =>
      rw [mapP_eq_ok_cons] at h
      obtain ⟨b, r', bs, h1, h2, rfl⟩ := h
      have := hn _ _ _ _ h1
      have := ih _ _ h2
      omega

theorem AgreeBelow.valueWith {k : Nat} {p q : P PropertySet} (h : AgreeBelow k p q)
    (hp : OnlySets p) (w : Nat) :
    AgreeBelow k (PropertyValue.parseWith p w) (PropertyValue.parseWith q w) := by
  unfold PropertyValue.parseWith
  generalize PropertyId.propType w = t
  split
  case h_14 =>
    exact AgreeBelow.bind (AgreeBelow.refl _ _) (Good.getLE 4).nonInc fun _ =>
      AgreeBelow.bind (AgreeBelow.refl _ _) (Good.getLE 4).nonInc fun _ => by
        intro t ht
        exact bind_congr_ok (AgreeBelow.replicateP h hp.nonInc _ t ht) fun _ _ _ => rfl
  case h_15 => exact AgreeBelow.bind h hp.nonInc fun _ => AgreeBelow.refl _ _
  all_goals exact AgreeBelow.refl _ _

theorem AgreeBelow.setWith {k : Nat} {p q : P PropertySet} (h : AgreeBelow k p q)
    (hp : OnlySets p) : AgreeBelow (k + 1) (PropertySet.parseWith p) (PropertySet.parseWith q) := by
  intro s hs
  refine bind_congr_ok rfl fun n r h1 => ?_
  have h1' := (Eats.getLE 2 (by decide)) _ _ _ h1
  refine bind_congr_ok rfl fun ids r' h2 => ?_
  have h2' := (Good.replicateP (Good.getLE 4) n).nonInc _ _ _ h2
  refine bind_congr_ok ?_ fun _ _ _ => rfl
  refine AgreeBelow.mapP (k := k) (fun e => ?_) (fun e => ?_) _ _ (by omega)
  · intro t ht
    exact bind_congr_ok (AgreeBelow.valueWith h hp _ t ht) fun _ _ _ => rfl
  · intro s v r h
    unfold PropertySet.parseEntry at h
    rw [P.bind_eq_ok] at h
    obtain ⟨v, r', h1, h2⟩ := h
    cases h2
    obtain ⟨bs, -, rfl⟩ := parseWith_valueEnc hp _ _ _ _ h1
    simp

theorem PropertySet.iter_agree {b b' : P PropertySet} (hb : OnlySets b)
    (n m : Nat) (s : Bytes) (hn : s.length < n) (hm : s.length < m) :
    PropertySet.iter b n s = PropertySet.iter b' m s := by
  suffices h : ∀ n m, AgreeBelow (min n m) (PropertySet.iter b n) (PropertySet.iter b' m) from
    h n m s (by omega)
  clear hn hm n m
  intro n
  induction n with
  | zero => intro m t ht; simp at ht
  | succ n ih =>
    intro m
    cases m with
    | zero => intro t ht; simp at ht
    | succ m =>
      have := AgreeBelow.setWith (ih m) (OnlySets.iter hb n)
      intro t ht
      exact this t (by omega)

theorem onlySets_fail (e : Err) : OnlySets (P.fail e) := by intro s v r h; cases h

/-- The depth bound of the model does not matter: any bound above the input length gives the same
result. -/
theorem PropertySet.parseFuel_irrel (n : Nat) (s : Bytes) (hn : s.length < n) :
    PropertySet.parseFuel n s = PropertySet.parse s := by
  unfold PropertySet.parse
  rw [PropertySet.parseFuel_eq, PropertySet.parseFuel_eq]
  exact PropertySet.iter_agree (onlySets_fail _) _ _ _ hn (by omega)

theorem PropertySet.parse_iter (n : Nat) (s : Bytes) (hn : s.length < n) :
    PropertySet.parse s = PropertySet.iter (P.fail .eof) n s := by
  unfold PropertySet.parse
  rw [PropertySet.parseFuel_eq]
  exact PropertySet.iter_agree (onlySets_fail _) _ _ _ (by omega) hn

/-- A parser that agrees with good parsers for every input length bound is good. -/
theorem Good.ofBounded {p : P α} {q : Nat → P α} (hq : ∀ n, Good (q n))
    (h : ∀ n s, s.length < n → p s = q n s) : Good p where
  pre := by
    intro s v r hs
    rw [h (s.length + 1) s (by omega)] at hs
    obtain ⟨c, hc, e1, q1⟩ := (hq _).pre _ _ _ hs
    refine ⟨c, hc, fun t => ?_, fun q' u hqu hu => ?_⟩
    · let N := s.length + 1 + (c ++ t).length + 1
      have hN : q N s = .ok (v, r) := by
        rw [← hs, ← h N s (by omega), h (s.length + 1) s (by omega)]
      obtain ⟨c', hc', e1', -⟩ := (hq N).pre _ _ _ hN
      have hcc : c' = c := by
        rw [hc] at hc'
        exact (List.append_cancel_right hc').symm
      rw [h N (c ++ t) (by omega), ← hcc]
      exact e1' t
    · rw [h (s.length + 1) q' (by rw [hc, hqu]; simp; omega)]
      exact q1 q' u hqu hu
  noFuel := by intro s; rw [h (s.length + 1) s (by omega)]; exact (hq _).noFuel s
  noPanic := by intro s; rw [h (s.length + 1) s (by omega)]; exact (hq _).noPanic s

theorem Good.propertySet : Good PropertySet.parse :=
  Good.ofBounded (fun n => Good.iter (Good.fail .eof (by decide) (by decide)) n)
    PropertySet.parse_iter

theorem Good.streamHeader : Good ObjectStreamHeader.parse :=
  Good.bind (Good.getLE 4) fun _ => Good.pure _

theorem Good.compactId : Good CompactId.parse :=
  Good.bind (Good.getLE 4) fun _ => Good.pure _

theorem Good.objectPropSet : Good ObjectPropSet.parse := by
  unfold ObjectPropSet.parse
  refine Good.bind Good.streamHeader fun h => Good.bind (Good.replicateP Good.compactId _) fun _ =>
    Good.bind ?_ fun _ => Good.bind Good.propertySet fun _ => Good.pure _
  refine Good.ite (Good.bind Good.streamHeader fun h =>
    Good.bind (Good.replicateP Good.compactId _) fun _ => Good.ite ?_ (Good.pure _)) (Good.pure _)
  exact Good.bind Good.streamHeader fun h => Good.bind (Good.replicateP Good.compactId _) fun _ =>
    Good.pure _

/-! ### The streams in front of a property set -/

theorem compactId_reads (c : CompactId) (h : CompactIdOk c) (r : Bytes) :
    CompactId.parse (compactId c ++ r) = .ok (c, r) := by
  obtain ⟨h1, h2⟩ := h
  unfold CompactId.parse getU32 compactId
  rw [P.bind_ok (getLE_leBytes_lt (by omega) r), and_ff, shr_eq]
  cases c
  simp only [P.pure_apply] at *
  congr 3 <;> simp at * <;> omega

theorem compactIds_reads (l : List CompactId) (h : ∀ c ∈ l, CompactIdOk c) (r : Bytes) :
    replicateP CompactId.parse l.length (compactIds l ++ r) = .ok (l, r) := by
  induction l with
  | nil => rfl
  | cons c l ih =>
    rw [List.length_cons, replicateP_eq_ok_succ]
    refine ⟨c, compactIds l ++ r, l, ?_, ih fun c' h' => h c' (List.mem_cons_of_mem _ h'), rfl⟩
    have := compactId_reads c (h c List.mem_cons_self) (compactIds l ++ r)
    simpa [compactIds] using this

theorem streamHeader_reads (n r : Nat) (ext no : Bool) (hn : n < 2 ^ 24) (hr : r < 2 ^ 6)
    (t : Bytes) :
    ObjectStreamHeader.parse (streamHeader n r ext no ++ t) = .ok (⟨n, ext, no⟩, t) := by
  unfold ObjectStreamHeader.parse getU32 streamHeader
  rw [P.bind_ok (getLE_leBytes_lt (by cases ext <;> cases no <;> simp <;> omega) t), and_ffffff,
    shr_eq, shr_eq, and_1]
  simp only [P.pure_apply]
  have e1 : (n + 2 ^ 24 * r + 2 ^ 30 * ext.toNat + 2 ^ 31 * no.toNat) % 16777216 = n := by
    cases ext <;> cases no <;> simp <;> omega
  have e2 : decide ((n + 2 ^ 24 * r + 2 ^ 30 * ext.toNat + 2 ^ 31 * no.toNat) / 2 ^ 30 % 2 ≠ 0)
      = ext := by
    cases ext <;> cases no <;> simp <;> omega
  have e3 : decide ((n + 2 ^ 24 * r + 2 ^ 30 * ext.toNat + 2 ^ 31 * no.toNat) / 2 ^ 31 ≠ 0)
      = no := by
    cases ext <;> cases no <;> simp <;> omega
  rw [e1, e2, e3]

theorem objectPropSet_reads {oids osids ctx : List CompactId} {es : List (Nat × PropertyValue)}
    {bs : Bytes} (h : ObjectPropSetEnc oids osids ctx es bs)
    (h1 : oids.length < 2 ^ 24 ∧ ∀ c ∈ oids, CompactIdOk c)
    (h2 : osids.length < 2 ^ 24 ∧ ∀ c ∈ osids, CompactIdOk c)
    (h3 : ctx.length < 2 ^ 24 ∧ ∀ c ∈ ctx, CompactIdOk c) (r : Bytes) :
    ObjectPropSet.parse (bs ++ r) = .ok (⟨oids, osids, ctx, setOf es⟩, r) := by
  unfold ObjectPropSet.parse
  cases h with
  | oids rv ext _ bs hr hs =>
    simp only [List.append_assoc]
    rw [P.bind_ok (streamHeader_reads _ _ _ _ h1.1 hr _), P.bind_ok (compactIds_reads _ h1.2 _)]
    simp only [Bool.not_true, Bool.false_eq_true, if_false, P.pure_bind]
    rw [P.bind_ok (reads_propertySet hs r)]
    rfl
  | osids rv rv' ext no' _ _ bs hr hr' hs =>
    simp only [List.append_assoc]
    rw [P.bind_ok (streamHeader_reads _ _ _ _ h1.1 hr _), P.bind_ok (compactIds_reads _ h1.2 _)]
    simp only [Bool.not_false, if_true, P.bind_assoc]
    rw [P.bind_ok (streamHeader_reads _ _ _ _ h2.1 hr' _), P.bind_ok (compactIds_reads _ h2.2 _)]
    simp only [Bool.false_eq_true, if_false, P.pure_bind]
    rw [P.bind_ok (reads_propertySet hs r)]
    rfl
  | contexts rv rv' rv'' ext no' ext'' no'' _ _ _ bs hr hr' hr'' hs =>
    simp only [List.append_assoc]
    rw [P.bind_ok (streamHeader_reads _ _ _ _ h1.1 hr _), P.bind_ok (compactIds_reads _ h1.2 _)]
    simp only [Bool.not_false, if_true, P.bind_assoc]
    rw [P.bind_ok (streamHeader_reads _ _ _ _ h2.1 hr' _), P.bind_ok (compactIds_reads _ h2.2 _)]
    simp only [if_true, P.bind_assoc]
    rw [P.bind_ok (streamHeader_reads _ _ _ _ h3.1 hr'' _), P.bind_ok (compactIds_reads _ h3.2 _)]
    simp only [P.pure_bind]
    rw [P.bind_ok (reads_propertySet hs r)]
    rfl

theorem compactIds_only (n : Nat) (s r : Bytes) (l : List CompactId)
    (h : replicateP CompactId.parse n s = .ok (l, r)) :
    l.length = n ∧ (∀ c ∈ l, CompactIdOk c) ∧ s = compactIds l ++ r := by
  induction n generalizing s l with
  | zero => cases h; exact ⟨rfl, by simp, rfl⟩
  | succ n ih =>
    rw [replicateP_eq_ok_succ] at h
    obtain ⟨b, r', bs, h1, h2, rfl⟩ := h
    obtain ⟨rfl, hw, rfl⟩ := ih _ _ h2
    unfold CompactId.parse at h1
    rw [P.bind_eq_ok] at h1
    obtain ⟨w, r'', h1, h3⟩ := h1
    obtain ⟨hv, rfl⟩ := getLE_eq_ok.mp h1
    rw [and_ff, shr_eq] at h3
    cases h3
    refine ⟨rfl, ?_, ?_⟩
    · intro c hc
      rcases List.mem_cons.mp hc with rfl | hc
      · exact ⟨by simp only; omega, by simp only; omega⟩
      · exact hw _ hc
    · have : w % 256 + 2 ^ 8 * (w / 2 ^ 8) = w := by omega
      simp [compactIds, compactId, this]

theorem streamHeader_only (s r : Bytes) (h : ObjectStreamHeader)
    (hs : ObjectStreamHeader.parse s = .ok (h, r)) :
    h.count < 2 ^ 24 ∧ ∃ rv, rv < 2 ^ 6 ∧
      s = streamHeader h.count rv h.extendedStreamsPresent h.osidStreamNotPresent ++ r := by
  unfold ObjectStreamHeader.parse at hs
  rw [P.bind_eq_ok] at hs
  obtain ⟨w, r', h1, h2⟩ := hs
  obtain ⟨hw, rfl⟩ := getLE_eq_ok.mp h1
  rw [and_ffffff, shr_eq, shr_eq, and_1] at h2
  cases h2
  refine ⟨by simp only; omega, w / 2 ^ 24 % 2 ^ 6, by omega, ?_⟩
  unfold streamHeader
  congr 2
  simp only
  have a1 : (decide (w / 2 ^ 30 % 2 ≠ 0)).toNat = w / 2 ^ 30 % 2 := by
    rcases Nat.mod_two_eq_zero_or_one (w / 2 ^ 30) with h | h <;> simp [h]
  have a2 : (decide (w / 2 ^ 31 ≠ 0)).toNat = w / 2 ^ 31 := by
    have : w / 2 ^ 31 = 0 ∨ w / 2 ^ 31 = 1 := by omega
    rcases this with h | h <;> simp [h]
  rw [a1, a2]
  omega

theorem objectPropSet_only (s r : Bytes) (v : ObjectPropSet)
    (h : ObjectPropSet.parse s = .ok (v, r)) :
    (v.objectIds.length < 2 ^ 24 ∧ ∀ c ∈ v.objectIds, CompactIdOk c) ∧
    (v.objectSpaceIds.length < 2 ^ 24 ∧ ∀ c ∈ v.objectSpaceIds, CompactIdOk c) ∧
    (v.contextIds.length < 2 ^ 24 ∧ ∀ c ∈ v.contextIds, CompactIdOk c) ∧
    ∃ es bs, ObjectPropSetEnc v.objectIds v.objectSpaceIds v.contextIds es bs ∧
      s = bs ++ r ∧ v.properties = setOf es := by
  unfold ObjectPropSet.parse at h
  rw [P.bind_eq_ok] at h
  obtain ⟨⟨n, ext, no⟩, r1, h1, h⟩ := h
  obtain ⟨hn, rv, hrv, rfl⟩ := streamHeader_only _ _ _ h1
  rw [P.bind_eq_ok] at h
  obtain ⟨oids, r2, h2, h⟩ := h
  obtain ⟨rfl, ho, rfl⟩ := compactIds_only _ _ _ _ h2
  rw [P.bind_eq_ok] at h
  obtain ⟨x, r3, h3, h⟩ := h
  rw [P.bind_eq_ok] at h
  obtain ⟨ps, r4, h4, h⟩ := h
  cases h
  obtain ⟨es, bs, he, rfl, rfl⟩ := onlySets_parse _ _ _ h4
  cases no with
  | true =>
    simp only [Bool.not_true, Bool.false_eq_true, if_false] at h3
    cases h3
    exact ⟨⟨hn, ho⟩, ⟨by simp, by simp⟩, ⟨by simp, by simp⟩, es, _, .oids rv ext es bs hrv he,
      by simp, rfl⟩
  | false =>
    simp only [Bool.not_false, if_true] at h3
    rw [P.bind_eq_ok] at h3
    obtain ⟨⟨n', ext', no'⟩, r5, h5, h3⟩ := h3
    obtain ⟨hn', rv', hrv', rfl⟩ := streamHeader_only _ _ _ h5
    rw [P.bind_eq_ok] at h3
    obtain ⟨osids, r6, h6, h3⟩ := h3
    obtain ⟨rfl, ho', rfl⟩ := compactIds_only _ _ _ _ h6
    cases ext' with
    | false =>
      simp only [Bool.false_eq_true, if_false] at h3
      cases h3
      exact ⟨⟨hn, ho⟩, ⟨hn', ho'⟩, ⟨by simp, by simp⟩, es, _,
        .osids rv rv' ext no' osids es bs hrv hrv' he, by simp, rfl⟩
    | true =>
      simp only [if_true] at h3
      rw [P.bind_eq_ok] at h3
      obtain ⟨⟨n'', ext'', no''⟩, r7, h7, h3⟩ := h3
      obtain ⟨hn'', rv'', hrv'', rfl⟩ := streamHeader_only _ _ _ h7
      rw [P.bind_eq_ok] at h3
      obtain ⟨ctx, r8, h8, h3⟩ := h3
      obtain ⟨rfl, ho'', rfl⟩ := compactIds_only _ _ _ _ h8
      cases h3
      exact ⟨⟨hn, ho⟩, ⟨hn', ho'⟩, ⟨hn'', ho''⟩, es, _,
        .contexts rv rv' rv'' ext no' ext'' no'' osids ctx es bs hrv hrv' hrv'' he, by simp, rfl⟩

end OneNote
