/-
Finite maps. Models `std::collections::HashMap` as used in /repo.
-/

namespace OneNote

/-- `HashMap<K, V>`: association list; `insert` keeps keys unique. -/
abbrev Map (K V : Type) := List (K × V)

namespace Map
variable {K V : Type} [DecidableEq K]

/-- `HashMap::get` -/
def get? (m : Map K V) (k : K) : Option V :=
  match m with
  | [] => none
  | (k', v) :: m => if k' = k then some v else get? m k

/-- `HashMap::contains_key` -/
def contains (m : Map K V) (k : K) : Bool := (m.get? k).isSome

/-- `HashMap::insert` (an existing entry is replaced). -/
def insert (m : Map K V) (k : K) (v : V) : Map K V :=
  m.filter (fun e => decide (e.1 ≠ k)) ++ [(k, v)]

/-- `HashMap::extend` and `collect::<HashMap<_, _>>()`: insert left to right,
so the last value for a key stays. -/
def extend (m : Map K V) (es : List (K × V)) : Map K V :=
  es.foldl (fun m e => m.insert e.1 e.2) m

def ofList (es : List (K × V)) : Map K V := extend [] es

end Map

/-- The iteration order of hash maps. Rust leaves it unspecified and `std`
randomises it per map, so every place in /repo that iterates over a map (and
whose result could depend on the order) gets its own arbitrary permutation:
`perm site l` is the order in which the entries `l` are visited at `site`. -/
structure Order where
  perm : Nat → {α : Type} → List α → List α
  isPerm : ∀ (site : Nat) {α : Type} (l : List α), (perm site l).Perm l

/-- `HashMap::values()` at iteration site `site`. -/
def Map.values {K V : Type} (ord : Order) (site : Nat) (m : Map K V) : List V :=
  (ord.perm site m).map Prod.snd

/-- Insertion order as one particular iteration order (for examples). -/
def Order.id : Order := ⟨fun _ _ l => l, fun _ _ l => List.Perm.refl l⟩

/-- Reverse insertion order as another iteration order (for examples). -/
def Order.rev : Order := ⟨fun _ _ l => l.reverse, fun _ _ l => List.reverse_perm l⟩

end OneNote
