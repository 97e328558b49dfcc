import Verif.Model.Channel

/-
The same calls at other times.
-/

namespace Redsea

/-- The same call at another time. -/
inductive SameCall : ChannelEvent → ChannelEvent → Prop where
  | bit (t t' : Int) (b : Bool) (n : Nat) : SameCall (.bit t b n) (.bit t' b n)
  | bits (t t' : Int) (l : List Bool) (n : Nat) : SameCall (.bits t l n) (.bits t' l n)
  | group (t t' : Int) (g : Group) (n : Nat) : SameCall (.group t g n) (.group t' g n)
  | flush (now now' : Nat → Int) : SameCall (.flush now) (.flush now')
  | resetPI : SameCall .resetPI .resetPI

end Redsea
