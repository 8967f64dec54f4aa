import Verif.Model.Py
/-! # Prefix tree of the terminal: tools/gsmtermlib/trie.py

A node's `key` and `value` are always set and cleared together, so they are one `entry`
(`none` when `key` is None). The `slots` dict is an association list in insertion order.
Keys are strings (`None` keys, refused with `ValueError`, cannot be written in the model). -/
namespace Gsm

mutual
/-- A `Trie` object, trie.py:17-20. -/
inductive Trie (V : Type)
  | node (slots : Slots V) (entry : Option (PyStr × V))
/-- The `slots` dict. -/
inductive Slots (V : Type)
  | nil
  | cons (c : Nat) (t : Trie V) (rest : Slots V)
end

variable {V : Type}

/-- `slots.get(c)`. -/
def Slots.lookup (c : Nat) : Slots V → Option (Trie V)
  | .nil => none
  | .cons d t rest => if d = c then some t else rest.lookup c

/-- `slots[c] = t`: replace in place, or append. -/
def Slots.put (c : Nat) (t : Trie V) : Slots V → Slots V
  | .nil => .cons c t .nil
  | .cons d u rest => if d = c then .cons d t rest else .cons d u (rest.put c t)

/-- `del slots[c]`. -/
def Slots.del (c : Nat) : Slots V → Slots V
  | .nil => .nil
  | .cons d u rest => if d = c then rest else .cons d u (rest.del c)

/-- The keys of the `slots` dict. -/
def Slots.chars : Slots V → List Nat
  | .nil => []
  | .cons c _ rest => c :: rest.chars

/-- `Trie()`. -/
def Trie.empty : Trie V := .node .nil none

/-- `Trie(key, value)`. -/
def Trie.leaf (key : PyStr) (value : V) : Trie V := .node .nil (some (key, value))

/-- `__setitem__`, trie.py:22-52. -/
def Trie.set : PyStr → V → Trie V → Trie V
  | [], value, .node slots _ => .node slots (some ([], value))
  | c :: key, value, .node slots entry =>
    match slots.lookup c with
    | none =>
      match entry with
      | some (branchC :: branchKey, v) =>
        if branchC ≠ c then .node ((slots.put branchC (.leaf branchKey v)).put c (.leaf key value)) none
        else .node (slots.put branchC (set key value (.leaf branchKey v))) none
      | _ => .node (slots.put c (.leaf key value)) entry
    | some trie => .node (slots.put c (set key value trie)) entry

/-- `__getitem__`, trie.py:78-94. -/
def Trie.getItem : PyStr → Trie V → Except PyErr V
  | [], .node _ entry =>
    match entry with
    | some ([], v) => .ok v
    | _ => .error .keyError
  | c :: key, .node slots entry =>
    match slots.lookup c with
    | some trie => getItem key trie
    | none =>
      match entry with
      | some (k, v) => if c :: key = k then .ok v else .error .keyError
      | none => .error .keyError

/-- `__contains__`, trie.py:96-101. -/
def Trie.contains (key : PyStr) (t : Trie V) : Bool :=
  match t.getItem key with
  | .ok _ => true
  | .error _ => false

/-- `get`, trie.py:110-114. -/
def Trie.getD (key : PyStr) (default : V) (t : Trie V) : V :=
  match t.getItem key with
  | .ok v => v
  | .error _ => default

/-- `__delitem__`, trie.py:55-76. -/
def Trie.delItem : PyStr → Trie V → Except PyErr (Trie V)
  | [], .node slots entry =>
    match entry with
    | some ([], _) => .ok (.node slots none)
    | _ => .error .keyError
  | c :: key, .node slots entry =>
    match slots.lookup c with
    | none => .error .keyError
    | some (.node slots' entry') =>
      if (entry'.map (·.1)) = some key then
        match slots' with
        | .cons _ _ _ => .ok (.node (slots.put c (.node slots' none)) entry)
        | .nil => .ok (.node (slots.del c) entry)
      else do
        let trie ← delItem key (.node slots' entry')
        return .node (slots.put c trie) entry

mutual
/-- `__len__`, trie.py:103-108. -/
def Trie.len : Trie V → Nat
  | .node slots entry => (if entry.isSome then 1 else 0) + slots.len
/-- Its loop. -/
def Slots.len : Slots V → Nat
  | .nil => 0
  | .cons _ t rest => t.len + rest.len
end

/-- `[prefix + self.key] if self.key != None else []`. -/
def ownKey (pre : PyStr) : Option (PyStr × V) → List PyStr
  | some (k, _) => [pre ++ k]
  | none => []

mutual
/-- `_allKeys`, trie.py:116-122. -/
def Trie.allKeys (pre : PyStr) : Trie V → List PyStr
  | .node slots entry => ownKey pre entry ++ slots.allKeys pre
/-- Its loop. -/
def Slots.allKeys (pre : PyStr) : Slots V → List PyStr
  | .nil => []
  | .cons c t rest => t.allKeys (pre ++ [c]) ++ rest.allKeys pre
end

/-- `_filteredKeys`, trie.py:135-151. -/
def Trie.filteredKeys : PyStr → PyStr → Trie V → List PyStr
  | [], pre, .node slots entry => ownKey pre entry ++ slots.allKeys pre
  | c :: key, pre, .node slots entry =>
    match slots.lookup c with
    | some trie => filteredKeys key (pre ++ [c]) trie
    | none =>
      match entry with
      | some (k, _) => if (c :: key).isPrefixOf k then [pre ++ k] else []
      | none => []

/-- `keys`, trie.py:124-133. -/
def Trie.keys (t : Trie V) : Option PyStr → List PyStr
  | none => t.allKeys []
  | some pre => t.filteredKeys pre []

/-- The generator of `__iter__`, trie.py:182-185: before its first step, between two steps, and after its end. -/
inductive TrieIter
  | start
  | running (rest : List PyStr)
  | ended

/-- Its loop over the list, and the `raise StopIteration` at the end. From Python 3.7 on (PEP 479) this exception leaves a
generator as `RuntimeError`. -/
def TrieIter.go (pep479 : Bool) : List PyStr → Except PyErr PyStr × TrieIter
  | [] => (.error (if pep479 then .runtimeError else .stopIteration), .ended)
  | k :: rest => (.ok k, .running rest)

/-- One step; `t` is the trie at this moment. -/
def TrieIter.step (pep479 : Bool) (t : Trie V) : TrieIter → Except PyErr PyStr × TrieIter
  | .start => go pep479 (t.keys none)
  | .running rest => go pep479 rest
  | .ended => (.error .stopIteration, .ended)

/-- `for k in trie: body(k)`, where the body may change the trie: the keys that it gets, the exception that leaves the loop, and
the trie; at most `fuel` steps. -/
def TrieIter.loop (pep479 : Bool) (body : PyStr → Trie V → Trie V) : Nat → TrieIter → Trie V → List PyStr × Option PyErr × Trie V
  | 0, _, t => ([], none, t)
  | fuel + 1, it, t =>
    match it.step pep479 t with
    | (.error .stopIteration, _) => ([], none, t)
    | (.error e, _) => ([], some e, t)
    | (.ok k, it') =>
      let r := TrieIter.loop pep479 body fuel it' (body k t)
      (k :: r.1, r.2)

mutual
/-- `_longestCommonPrefix` with an empty key, trie.py:159-169. -/
def Trie.lcpNil (pre : PyStr) : Trie V → PyStr
  | .node slots entry =>
    match entry with
    | some (k, _) => pre ++ k
    | none => slots.lcpNil pre
/-- Its case on the number of slots. -/
def Slots.lcpNil (pre : PyStr) : Slots V → PyStr
  | .cons c t .nil => t.lcpNil (pre ++ [c])
  | _ => pre
end

/-- `_longestCommonPrefix`, trie.py:159-180. -/
def Trie.lcpAux : PyStr → PyStr → Trie V → PyStr
  | [], pre, t => t.lcpNil pre
  | c :: key, pre, .node slots entry =>
    match entry with
    | some (k, _) => if (c :: key).isPrefixOf k then pre ++ k else []
    | none =>
      match slots.lookup c with
      | some trie => lcpAux key (pre ++ [c]) trie
      | none => []

/-- `longestCommonPrefix`, trie.py:153-157. -/
def Trie.longestCommonPrefix (t : Trie V) (pre : PyStr := []) : PyStr := t.lcpAux pre []

/-- One operation on a trie. -/
inductive TrieOp (V : Type)
  | set (k : PyStr) (v : V)
  | del (k : PyStr)

/-- Effect of an operation (a deletion that raises leaves the trie as it was). -/
def TrieOp.run : TrieOp V → Trie V → Trie V
  | .set k v, t => t.set k v
  | .del k, t =>
    match t.delItem k with
    | .ok t' => t'
    | .error _ => t

/-- The trie after a history of operations on `Trie()`. -/
def trieOf (ops : List (TrieOp V)) : Trie V := ops.foldl (fun t o => o.run t) .empty

end Gsm
