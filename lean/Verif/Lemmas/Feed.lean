import Verif.Spec.Feed

/-! # Lemmas about feeding a parser -/

namespace CoreHttp
open Spec

theorem feedAll_pos (P : Parser) (pol : PEv → CbRet) (ds : List Bytes) : (feedAll P pol ds).2.1 = ds.flatten.length := by
  have key : ∀ (ds : List Bytes) acc, (ds.foldl (feedStep P pol) acc).2.1 = acc.2.1 + ds.flatten.length := by
    intro ds
    induction ds with
    | nil => intro acc; rfl
    | cons d ds ih => intro acc; rw [List.foldl_cons, ih]; simp [feedStep]; omega
  have := key ds ([], 0, P.init, .ok)
  simpa [feedAll] using this

end CoreHttp
