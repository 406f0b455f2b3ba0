/-
Sequences of stores into flat C arrays.
-/
import Verif.Model.Vec

namespace Phono3py

/-- The array after the stores `a[w.1] = w.2`, in order. Every C loop nest that only stores
values computed from other arrays is modelled as the list of its stores (c/fc3.c:125-142). -/
def runWrites {α : Type _} (a : Int → α) (ws : List (Int × α)) : Int → α :=
  ws.foldl (fun a w => upd a w.1 w.2) a

/-- `for (i = 0; i < n; i++)` (c/fc3.c:125-142). -/
def loop {β : Type _} (n : Nat) (body : Nat → List β) : List β := (List.range n).flatMap body

/-- The array after the updates `a[w.1] += w.2`, in order (c/phono3py.c:547-582). -/
def runAdds {α : Type _} [Add α] (a : Int → α) (ws : List (Int × α)) : Int → α :=
  ws.foldl (fun a w => upd a w.1 (a w.1 + w.2)) a

/-- `s = 0; for (i = 0; i < n; i++) s += f(i)` (c/fc3.c:222-241). -/
def sumLoop {α : Type _} [Zero α] [Add α] (n : Nat) (f : Nat → α) : α :=
  (List.range n).foldl (fun s i => s + f i) 0

end Phono3py
