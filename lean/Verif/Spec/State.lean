/- What "the latest parameter set with an id" means. -/
namespace H265.Spec

/-- The last element that is present with the given id, in a list of results. -/
def latest {α β : Type} (field : α → Option β) (id : β → Nat) (i : Nat) (l : List α) : Option β :=
  ((l.filterMap field).filter fun b => decide (id b = i)).getLast?

example : latest (fun o : Option (Nat × Char) => o) (·.1) 1 [some (1, 'a'), none, some (2, 'b'), some (1, 'c'), some (3, 'd')] = some (1, 'c') := by decide
example : latest (fun o : Option (Nat × Char) => o) (·.1) 4 [some (1, 'a'), none] = none := by decide

end H265.Spec
