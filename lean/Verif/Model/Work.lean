import Verif.Model.Validator
/-
How much a validator does: the operations it performs.
-/

namespace DDL

/-- The number of operations that `run` performs: one for each call of `token`, `isOutOfRange`, `set`,
`syntaxError` and each `token()[0:1]` (validator.go:56-71, 94-96), and for `next` (74-91) one for the call and one
for each token that it passes. -/
def work : Prog α → VS → Nat
  | .ret _, _ => 0
  | .token k, s => work (k s.token) s + 1
  | .oob k, s => work (k s.rest.isEmpty) s + 1
  | .head k, s =>
    match s.token with
    | [] => 1
    | c :: _ => work (k c) s + 1
  | .adv true k, s => work k (s.next.set s.token) + 2 + (s.rest.length - s.next.rest.length)
  | .adv false k, s => work k s.next + 1 + (s.rest.length - s.next.rest.length)
  | .emit t k, s => work k (s.set t) + 1
  | .fail, _ => 1
  | .timeout, _ => 0

end DDL
