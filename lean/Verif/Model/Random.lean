import Verif.Go.Bytes

/-!
# Random numbers

utils/utils.go:226-233. The generator (math/rand) is a number `r` the environment chooses: `rand.Intn(n)` can return every number from
0 to n - 1 and nothing else.
-/

namespace Gosms.Random

/-- math/rand `Intn`: panics (`none`) unless `n` is positive. Used at utils/utils.go:227, 232. -/
def intn (r : Nat) (n : Int) : Option Int := if n ≤ 0 then none else some (r % n.toNat : Nat)

/-- utils/utils.go:226-228 `RandNum`; the difference is assumed to fit in an `int`. -/
def randNum (r : Nat) (min max : Int) : Option Int := (intn r (max - min)).map (· + min)

/-- utils/utils.go:231-233 `DiceCheck`. Floating point numbers are a type `F` with an order; `tenThousandth k` stands for
`float64(k)/10000.0`. -/
def diceCheck {F : Type} [LT F] [DecidableLT F] (tenThousandth : Nat → F) (r : Nat) (prob : F) : Bool :=
  decide (prob < tenThousandth (r % 10000))

/-- msc_server/server/on_traffic.go:153-159 `mockRandPrecessTime`: the time it sleeps; `none`: a panic. -/
def processTime (r : Nat) (minMs maxMs : Int) : Option Int := randNum r minMs maxMs

end Gosms.Random
