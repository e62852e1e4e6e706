import Verif.Spec.View

/-! # Feeding a byte stream to a parser, independently of the library -/

namespace CoreHttp
variable {S : Type}

/-- Run a tree of callbacks with fixed answers: the events, and the end. -/
def PTree.run (pol : PEv → CbRet) : PTree S → List PEv × Errno × Nat × S
  | .done er ep s => ([], er, ep, s)
  | .call e k => (e :: ((k (pol e)).run pol).1, ((k (pol e)).run pol).2)

/-- Feeding one piece of data to the parser: events so far, number of bytes read, parser state, result of the last call. -/
def feedStep (P : Parser) (pol : PEv → CbRet) (acc : List PObs × Nat × P.St × Errno) (d : Bytes) : List PObs × Nat × P.St × Errno :=
  (acc.1 ++ ((P.exec acc.2.2.1 d).run pol).1.map (·.observe acc.2.1 d), acc.2.1 + d.length, ((P.exec acc.2.2.1 d).run pol).2.2.2,
    ((P.exec acc.2.2.1 d).run pol).2.1)

/-- Feeding pieces of data to a fresh parser. -/
def feedAll (P : Parser) (pol : PEv → CbRet) (ds : List Bytes) : List PObs × Nat × P.St × Errno :=
  ds.foldl (feedStep P pol) ([], 0, P.init, .ok)

namespace Spec

/-- Callbacks answer "continue", except for the end of the header section. -/
def answers (hr : CbRet) : PEv → CbRet
  | .headersComplete _ _ _ _ => hr
  | _ => .continue_

/-- The parser's verdict, and unless it is an error the meaning of what it reports, do not depend on how the byte stream is cut into pieces. -/
def ChunkFree (P : Parser) : Prop :=
  ∀ hr ds ds', hr ≠ .user → ds.flatten = ds'.flatten →
    (feedAll P (answers hr) ds).2.2.2 = (feedAll P (answers hr) ds').2.2.2 ∧
    ((feedAll P (answers hr) ds).2.2.2 = .ok ∨ (feedAll P (answers hr) ds).2.2.2 = .paused ∨ (feedAll P (answers hr) ds).2.2.2 = .pausedUpgrade →
      view (feedAll P (answers hr) ds).1 = view (feedAll P (answers hr) ds').1)

end Spec
end CoreHttp
