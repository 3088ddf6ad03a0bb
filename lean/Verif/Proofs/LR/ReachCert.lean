import Verif.Proofs.LR.Cert

/-! Generated by /verif/tools/gen_reach.py.  Nothing here is trusted, all uses are checked in `Chosen.lean`. -/

namespace Asn1go.LR

open Tri

/-- Tokens (bits 1 to 128) that can be ahead in a state. -/
def reachT : Tri Nat :=
  (n 216 (n 108 (n 54 (n 27 (n 13 (n 6 (n 3 (n 1 (l 680564733841876926926749214863536422910) (n 1 (l
  680564733841876926926749214863536422910) (l 680564733841876926926749214863536422910))) (n 1 (l
  680564733841876926926749214863536422910) (n 1 (l 680564733841876926926749214863536422910) (l
  680564733841876926926749214863536422910)))) (n 3 (n 1 (l 680564733841876926926749214863536422910) (n 1 (l
  680564733841876926926749214863536422910) (l 680564733841876926926749214863536422910))) (n 2 (n 1 (l
  680564733841876926926749214863536422910) (l 680564733841876926926749214863536422910)) (n 1 (l
  680564733841876926926749214863536422910) (l 680564733841876926926749214863536422526))))) (n 7 (n 3 (n 1 (l
  680564733841876926926749214863536422910) (n 1 (l 680564733841876926926749214859241455614) (l
  680564733841876926926749214863536422910))) (n 2 (n 1 (l 680564733841876926926749214863536422910) (l
  680564733841876926926749214863536422910)) (n 1 (l 680564733841876926926749214863536422910) (l
  680564733841876926926749214863536422910)))) (n 3 (n 1 (l 680564733841876926926749214863536422910) (n 1 (l
  680564733841876926926749214863536422910) (l 680564733841876926926749214863536422910))) (n 2 (n 1 (l
  680564733841876926926749214863536422910) (l 680564733841876926926749214863536422910)) (n 1 (l
  680564733841876926926749214863536422910) (l 680564733841876926926749214863536422526)))))) (n 13 (n 6 (n 3 (n 1
  (l 680564733841876926926749214863536422910) (n 1 (l 680564733841876926926749214863536422910) (l
  680564733841876926926749214863536422910))) (n 1 (l 680564733841876926926749214863536422910) (n 1 (l
  680564733841876926926749214863536422910) (l 680564733841876926926749214863536422910)))) (n 3 (n 1 (l
  680564733841876926926749214863536422718) (n 1 (l 680564733841876926926749214863536422910) (l
  680564733841876926926749214863536422910))) (n 2 (n 1 (l 680564733841876926926749214863536422910) (l
  680564733841876926926749214863536422910)) (n 1 (l 680564733841876926926749214863536422910) (l
  680564733841876926926749214863536422910))))) (n 7 (n 3 (n 1 (l 680564733841876926926749214863536422910) (n 1 (l
  680564733841876926926749214863536422910) (l 680564733841876926926749214863536422910))) (n 2 (n 1 (l
  680564733841876926926749214863536422910) (l 680564733841876926926749214861388939262)) (n 1 (l 2147483648) (l
  680564733841876926926749214863536422910)))) (n 3 (n 1 (l 680564733841876926926749214863536422910) (n 1 (l
  680564733841876926926749214863536422910) (l 680564733841876926926749214863536422910))) (n 2 (n 1 (l
  680564733841876926926749214863536422910) (l 680564733841876926926749214859241455614)) (n 1 (l
  680564733841876926926749214863536422910) (l 680564733841876926926749214863536422910))))))) (n 27 (n 13 (n 6 (n
  3 (n 1 (l 680564733841876926926749214863536422910) (n 1 (l 680564733841876926926749214863536422910) (l
  680564733841876926926749214863536422718))) (n 1 (l 680564733841876926926749214863536422910) (n 1 (l
  680564733841876926926749214863536422910) (l 680564733841876926926749214863536422910)))) (n 3 (n 1 (l
  680564733841876926926749214863536422910) (n 1 (l 680564733841876926926749214863536422910) (l
  680564733841876926926749214863536422910))) (n 2 (n 1 (l 680564733841876926926749214863536422910) (l
  680564733841876926926749214863536422910)) (n 1 (l 680564733841876926926749214863536422910) (l
  680564733841876926926749214863536422910))))) (n 7 (n 3 (n 1 (l 680564733841876926926749214863536422910) (n 1 (l
  680564733841876926926749214863536422910) (l 680564733841876926926749214863536422910))) (n 2 (n 1 (l
  680564733841876926926749214863536422910) (l 680564733841876926926749214863536422910)) (n 1 (l
  680564733841876926926749214863536422910) (l 680564733841876926926749214863536422910)))) (n 3 (n 1 (l
  680564733841876926926749214863536422910) (n 1 (l 680564733841876926926749214863536422910) (l
  680564733841876926926749214863536422910))) (n 2 (n 1 (l 680564733841876926926749214863536422910) (l
  680564733841876926926749214863536422910)) (n 1 (l 680564733841876926926749214863536422910) (l
  680564733841876926926749214859241455614)))))) (n 13 (n 6 (n 3 (n 1 (l 680564733841876926926749214863536422910)
  (n 1 (l 680564733841876926926749214859241455614) (l 680564733841876926926749214863536422910))) (n 1 (l
  680564733841876926926749214859241455614) (n 1 (l 680564733841876926926749214863536422910) (l
  680564733841876926926749214863536422910)))) (n 3 (n 1 (l 680564733841876926926749214859241455614) (n 1 (l
  680564733841876926926749214863536422910) (l 680564733841876926926749214863536422910))) (n 2 (n 1 (l
  680564733841876926926749214863536422910) (l 680564733841876926926749214863536422910)) (n 1 (l
  680564733841876926926749214863536422910) (l 680564733841876926926749214863536422910))))) (n 7 (n 3 (n 1 (l
  680564733841876926926749214863536422910) (n 1 (l 680564733841876926926749214863536422910) (l
  680564733841876926926749214863536422910))) (n 2 (n 1 (l 680564733841876926926749214863536422910) (l
  680564733841876926926749214863536422910)) (n 1 (l 680564733841876926926749214863536422910) (l
  680564733841876926926749214863536422910)))) (n 3 (n 1 (l 680564733841876926926749214863536422910) (n 1 (l
  680564733841876926926749214863536422910) (l 680564733841876926926749214863536422910))) (n 2 (n 1 (l
  680564733841876926926749214863536422910) (l 680564733841876926926749214863536422910)) (n 1 (l
  680564733841876926926749214863536422910) (l 680564733841876926926749214863536422910)))))))) (n 54 (n 27 (n 13
  (n 6 (n 3 (n 1 (l 680564733841876926926749214863536422910) (n 1 (l 680564733841876926926749214863536422910) (l
  680564733841876926926749214863536422910))) (n 1 (l 680564733841876926926749214863536422910) (n 1 (l
  680564733841876926926749214863536422910) (l 680564733841876926926749214863536422910)))) (n 3 (n 1 (l
  680564733841876926926749214863536422910) (n 1 (l 680564733841876926926749214863536422910) (l
  680564733841876926926749214863536422910))) (n 2 (n 1 (l 680564733841876926926749214863536422910) (l
  680564733841876926926749214863536422910)) (n 1 (l 680564733841876926926749214863536422910) (l
  680564733841876926926749214863536422910))))) (n 7 (n 3 (n 1 (l 680564733841876926926749214863536422910) (n 1 (l
  680564733841876926926749214863536422910) (l 680564733841876926926749214863536422910))) (n 2 (n 1 (l
  680564733841876926926749214863536422910) (l 680564733841876926926749214863536422910)) (n 1 (l
  680564733841876926926749214863536422910) (l 680564733841876926926749214863536422910)))) (n 3 (n 1 (l
  680564733841876926926749214863536422910) (n 1 (l 680564733841876926926749214863536422910) (l
  680564733841876926926749214863536422910))) (n 2 (n 1 (l 680564733841876926926749214863536422910) (l
  680564733841876926926749214863536422910)) (n 1 (l 680564733841876926926749214863536422910) (l
  680564733841876926926749214863536422910)))))) (n 13 (n 6 (n 3 (n 1 (l 680564733841876926926749214863536422910)
  (n 1 (l 680564733841876926926749214863536422910) (l 680564733841876926926749214863536422910))) (n 1 (l
  680564733841876926926749214863536422910) (n 1 (l 680564733841876926926749214863536422910) (l
  680564733841876926926749214863536422910)))) (n 3 (n 1 (l 680564733841876926926749214863536422910) (n 1 (l
  680564733841876926926749214863536422910) (l 680564733841876926926749214863536422910))) (n 2 (n 1 (l
  680564733841876926926749214863536422910) (l 680564733841876926926749214863536422910)) (n 1 (l
  680564733841876926926749214863536422910) (l 680564733841876926926749214863536422910))))) (n 7 (n 3 (n 1 (l
  680564733841876926926749214863536422910) (n 1 (l 680564733841876926926749214863536422910) (l
  680564733841876926926749214863536422910))) (n 2 (n 1 (l 680564733841876926926749214863536422910) (l
  680564733841876926926749214863536422910)) (n 1 (l 680564733841876926926749214863536422910) (l
  680564733841876926926749214863536422910)))) (n 3 (n 1 (l 680564733841876926926749214863536422910) (n 1 (l
  680564733841876926926749214863536422910) (l 680564733841876926926749214863536422910))) (n 2 (n 1 (l
  680564733841876926926749214863536422910) (l 680564733841876926926749214863536422910)) (n 1 (l
  680564733841876926926749214863536422910) (l 680564733841876926926749214863536422910))))))) (n 27 (n 13 (n 6 (n
  3 (n 1 (l 680564733841876926926749214863536422910) (n 1 (l 680564733841876926926749214861355384830) (l
  680564733841876926926749214863536422910))) (n 1 (l 680564733841876926926749214863536422910) (n 1 (l
  680564733841876926926749214863536422910) (l 680564733841876926926749214863536422910)))) (n 3 (n 1 (l
  680564733841876926926749214863536422910) (n 1 (l 680564733841876926926749214863536422910) (l
  680564733841876926926749214863536422910))) (n 2 (n 1 (l 680564733841876926926749214863536422910) (l
  680564733841876926926749214863536422910)) (n 1 (l 680564733841876926926749214863536422910) (l
  680564733841876926926749214863536422910))))) (n 7 (n 3 (n 1 (l 680564733841876926926749214863536422910) (n 1 (l
  680564733841876926926749214863536422910) (l 680564733841876926926749214863536422910))) (n 2 (n 1 (l
  680564733841876926926740137295537504254) (l 680564733841876926926749214863536422910)) (n 1 (l
  680564733841876926926749214863536422910) (l 19807040628566101990572032000)))) (n 3 (n 1 (l
  680564733841876926926749214863536422910) (n 1 (l 9077567998918656) (l
  680564733841876926926749214863536422910))) (n 2 (n 1 (l 1152921504606846976) (l
  680564733841876926926749214863536422910)) (n 1 (l 680564733841876926926749214863536422910) (l
  680564733841876926926749214863267921918)))))) (n 13 (n 6 (n 3 (n 1 (l 680564733841876926926749214863536422910)
  (n 1 (l 680564733841876926926749214863536422910) (l 680564733841876926926749214859241455614))) (n 1 (l
  680564733841876926926749214863536422910) (n 1 (l 680564733841876926926749214863536422910) (l
  680564733841876926926749214863536422910)))) (n 3 (n 1 (l 680564733841876926926749214863536422910) (n 1 (l
  680564733841876926926749214863536422910) (l 680564733841876926926749214863536422910))) (n 2 (n 1 (l
  680564733841876926926749214863536422910) (l 680564733841876926926749214863536422910)) (n 1 (l
  680564733841876926926749214863536422910) (l 680564733841876926926749214859241455614))))) (n 7 (n 3 (n 1 (l
  680564733841876926926749214863536422910) (n 1 (l 680564733841876926926749214859241455614) (l
  680564733841876926926749214863536422910))) (n 2 (n 1 (l 680564733841876926926749214863536422910) (l
  680564733841876926926749214862462681086)) (n 1 (l 680564733841876926926749214862462681086) (l
  680564733841876926926749214862462681086)))) (n 3 (n 1 (l 680564733841876926926749214863536422910) (n 1 (l
  680564733841876926926749214863536422910) (l 680564733841876926926749214863536422910))) (n 2 (n 1 (l
  680564733841876926926749214863536422910) (l 680564733841876926926749214863536422910)) (n 1 (l
  680564733841876926926749214863536422910) (l 680564733841876926926749214863536422910))))))))) (n 108 (n 54 (n 27
  (n 13 (n 6 (n 3 (n 1 (l 680564733841876926926749214863536422910) (n 1 (l
  680564733841876926926749214862462681086) (l 680564733841876926926749214863536422910))) (n 1 (l
  680564733841876926926749214863536422910) (n 1 (l 680564733841876926926749214859241455614) (l
  680564733841876926926749214863536422910)))) (n 3 (n 1 (l 680564733841876926926749214863536422910) (n 1 (l
  680564733841876926926749214859241455614) (l 680564733841876926926749214863536422910))) (n 2 (n 1 (l
  680564733841876926926749214863536422910) (l 680564733841876926926749214863536422910)) (n 1 (l
  680564733841876926926749214863536422910) (l 680564733841876926926749214863536422910))))) (n 7 (n 3 (n 1 (l
  680564733841876926926749214862462681086) (n 1 (l 680564733841876926926749214863536422910) (l
  680564733841876926926749214859241455614))) (n 2 (n 1 (l 680564733841876926926749214863536422910) (l
  680564733841876926926749214863536422910)) (n 1 (l 680564733841876926926749214863536422910) (l
  680564733841876926926749214863536422910)))) (n 3 (n 1 (l 680564733841876926926749214863536422910) (n 1 (l
  680564733841876926926749214863536422910) (l 680564733841876926926749214863536422910))) (n 2 (n 1 (l
  680564733841876926926749214863536422910) (l 680564733841876926926749214863536422910)) (n 1 (l
  680564733841876926926749214863536422910) (l 680564733841876926926749214863536422910)))))) (n 13 (n 6 (n 3 (n 1
  (l 680564733841876926926749214863536422910) (n 1 (l 680564733841876926926749214863536422910) (l
  680564733841876926926749214863536422910))) (n 1 (l 680564733841876926926749214863536422462) (n 1 (l
  680564733841876926926749214863536422910) (l 680564733841876926926749214863536422910)))) (n 3 (n 1 (l 0) (n 1 (l
  680564733841876926926749214863536422910) (l 680564733841876926926749214863536422910))) (n 2 (n 1 (l
  680564733841876926926749214863536422910) (l 4294967296)) (n 1 (l 680564733841876926926749214863536422910) (l
  680564733841876926926749214863536422910))))) (n 7 (n 3 (n 1 (l 680564733841876926926749214863536422910) (n 1 (l
  680564733841876926926749214863536422910) (l 680564733841876926926749214863536422910))) (n 2 (n 1 (l
  680564733841876926926749214863536422910) (l 680564733841876926926749214863536422910)) (n 1 (l
  680564733841876926926749214863536422910) (l 680564733841876926926749214863536422910)))) (n 3 (n 1 (l
  680564733841876926926749214863536422910) (n 1 (l 680564733841876926926749214863536422910) (l
  680564733841876926926749214863536422910))) (n 2 (n 1 (l 680564733841876926926749214863536422910) (l
  680564733841876926926749214863536422910)) (n 1 (l 680564733841876926926749214863536422910) (l
  680564733841876926926749214863536422910))))))) (n 27 (n 13 (n 6 (n 3 (n 1 (l
  680564733841876926926749214863536422910) (n 1 (l 680564733841876926926749214863536422910) (l
  680564733841876926926749214863536422910))) (n 1 (l 680564733841876926926749214863536422910) (n 1 (l
  680564733841876926926749214863536422910) (l 680564733841876926926749214863536422910)))) (n 3 (n 1 (l
  680564733841876926926749214863536422910) (n 1 (l 680564733841876926926749214863536422910) (l
  680564733841876926926749214863536422910))) (n 2 (n 1 (l 680564733841876926926749214863536422910) (l
  680564733841876926926749214863536422910)) (n 1 (l 680564733841876926926749214862462681086) (l
  680564733841876926926749214863536422910))))) (n 7 (n 3 (n 1 (l 680564733841876926926749214863536422910) (n 1 (l
  680564733841876926926749214863536422910) (l 680564733841876926926749214863536422910))) (n 2 (n 1 (l 0) (l
  680564733841876926926749214863536422910)) (n 1 (l 680564733841876926926749214863536422910) (l
  680564733841876926926749214863536422910)))) (n 3 (n 1 (l 680564733841876926926749214863536422910) (n 1 (l
  680564733841876926926749214863536422910) (l 680564733841876926926749214863536422910))) (n 2 (n 1 (l
  680564733841876926926749214863536422910) (l 680564733841876926926749214863536422910)) (n 1 (l
  680564733841876926926749214863536422910) (l 680564733841876926926749214863536422910)))))) (n 13 (n 6 (n 3 (n 1
  (l 680564733841876926926749214863536422910) (n 1 (l 680564733841876926926749214863536422910) (l
  680564733841876926926749214859241455614))) (n 1 (l 680564733841876926926749214863536422910) (n 1 (l
  680564733841876926926749214859241455614) (l 680564733841876926926749214863536422910)))) (n 3 (n 1 (l
  680564733841876926926749214863536422910) (n 1 (l 680564733841876926926749214863536422910) (l
  680564733841876926926749214859241455614))) (n 2 (n 1 (l 680564733841876926926749214863536422910) (l
  680564733841876926926749214859241455614)) (n 1 (l 680564733841876926926749214863536422910) (l
  680564733841876926926749214863536422910))))) (n 7 (n 3 (n 1 (l 680564733841876926926749214863536422910) (n 1 (l
  680564733841876926926749214863536422910) (l 680564733841876926926749214863536422462))) (n 2 (n 1 (l
  680564733841876926926749214863536422910) (l 680564733841876926926749214863536422462)) (n 1 (l
  680564733841876926926749214863536422910) (l 680564733841876926926749214863536422910)))) (n 3 (n 1 (l
  680564733841876926926749214863536422910) (n 1 (l 680564733841876926926749214863536422910) (l
  680564733841876926926749214863536422910))) (n 2 (n 1 (l 680564733841876926926749214863536422910) (l
  680564733841876926926749214863536422910)) (n 1 (l 680564733841876926926749214863536422910) (l
  680564733841876926926749214863536422910)))))))) (n 54 (n 27 (n 13 (n 6 (n 3 (n 1 (l
  680564733841876926926749214863536422910) (n 1 (l 680564733841876926926749214863536422910) (l
  680564733841876926926749214863536422910))) (n 1 (l 680564733841876926926749214863536422910) (n 1 (l
  680564733841876926926749214863536422910) (l 680564733841876926926749214863536422910)))) (n 3 (n 1 (l
  680564733841876926926749214863536422910) (n 1 (l 680564733841876926926749214863536422910) (l
  680564733841876926926749214863536422910))) (n 2 (n 1 (l 680564733841876926926749214863536422910) (l
  680564733841876926926749214863536422910)) (n 1 (l 680564733841876926926749214863536422910) (l
  680564733841876926926749214863536422910))))) (n 7 (n 3 (n 1 (l 680564733841876926926749214863536422910) (n 1 (l
  680564733841876926926749214863536422910) (l 680564733841876926926749214863536422910))) (n 2 (n 1 (l
  680564733841876926926749214863536422910) (l 680564733841876926926749214863536422910)) (n 1 (l
  680564733841876926926749214863536422910) (l 680564733841876926926749214863536422910)))) (n 3 (n 1 (l
  680564733841876926926749214863536422910) (n 1 (l 680564733841876926926749214863536422910) (l
  680564733841876926926749214863536422910))) (n 2 (n 1 (l 680564733841876926926749214859241455614) (l
  680564733841876926926749214863536422910)) (n 1 (l 680564733841876926926749214859241455614) (l
  680564733841876926926749214859241455614)))))) (n 13 (n 6 (n 3 (n 1 (l 680564733841876926926749214859241455614)
  (n 1 (l 0) (l 680564733841876926926749214862462681086))) (n 1 (l 680564733841876926926749214863536422910) (n 1
  (l 680564733841876926926749214863536422910) (l 680564733841876926926749214863536422910)))) (n 3 (n 1 (l
  680564733841876926926749214863536422910) (n 1 (l 680564733841876926926749214863536422910) (l
  680564733841876926926749214863536422910))) (n 2 (n 1 (l 680564733841876926926749214863536422910) (l
  680564733841876926926749214863536422910)) (n 1 (l 680564733841876926926749214863536422910) (l
  680564733841876926926749214863536422910))))) (n 7 (n 3 (n 1 (l 680564733841876926926749214863536422910) (n 1 (l
  680564733841876926926749214863536422910) (l 680564733841876926926749214863536422910))) (n 2 (n 1 (l
  680564733841876926926749214863536422910) (l 680564733841876926926749214863536422910)) (n 1 (l
  680564733841876926926749214863536422910) (l 680564733841876926926749214863536422910)))) (n 3 (n 1 (l
  680564733841876926926749214863536422910) (n 1 (l 680564733841876926926749214863536422910) (l
  680564733841876926926749214863536422910))) (n 2 (n 1 (l 680564733841876926926749214862462681086) (l
  680564733841876926926749214863536422910)) (n 1 (l 680564733841876926926749214863536422910) (l
  680564733841876926926749214863536422910))))))) (n 27 (n 13 (n 6 (n 3 (n 1 (l
  680564733841876926926749214863536422910) (n 1 (l 680564733841876926926749214863536422910) (l
  680564733841876926926749214863536422910))) (n 1 (l 680564733841876926926749214862462681086) (n 1 (l
  680564733841876926926749214863536422910) (l 680564733841876926926749214863536422910)))) (n 3 (n 1 (l
  680564733841876926926749214863536422910) (n 1 (l 680564733841876926926749214863536422910) (l
  680564733841876926926749214862462681086))) (n 2 (n 1 (l 680564733841876926926749214863536422910) (l
  680564733841876926926749214863536422910)) (n 1 (l 680564733841876926926749214863536422910) (l
  680564733841876926926749214863536422910))))) (n 7 (n 3 (n 1 (l 680564733841876926926749214863536422910) (n 1 (l
  680564733841876926926749214863536422910) (l 680564733841876926926749214863536422910))) (n 2 (n 1 (l
  680564733841876926926749214863536422910) (l 680564733841876926926749214863536422910)) (n 1 (l
  680564733841876926926749214863536422910) (l 680564733841876926926749214863536422910)))) (n 3 (n 1 (l
  680564733841876926926749214863536422910) (n 1 (l 680564733841876926926749214863536422910) (l
  680564733841876926926749214863536422910))) (n 2 (n 1 (l 680564733841876926926749214863536422910) (l
  680564733841876926926749214859241455614)) (n 1 (l 680564733841876926926749214863536422910) (l
  680564733841876926926749214862462681086)))))) (n 13 (n 6 (n 3 (n 1 (l 0) (n 1 (l 0) (l
  680564733841876926926749214863536422910))) (n 1 (l 680564733841876926926749214863536422910) (n 1 (l
  680564733841876926926749214863536422910) (l 680564733841876926926749214863536422910)))) (n 3 (n 1 (l
  680564733841876926926749214863536422910) (n 1 (l 680564733841876926926749214862462681086) (l
  680564733841876926926749214862462681086))) (n 2 (n 1 (l 680564733841876926926749214863536422910) (l
  680564733841876926926749214863536422910)) (n 1 (l 680564733841876926926749214863536422910) (l
  680564733841876926926749214863536422910))))) (n 7 (n 3 (n 1 (l 680564733841876926926749214862462681086) (n 1 (l
  680564733841876926926749214862462681086) (l 0))) (n 2 (n 1 (l 0) (l 680564733841876926926749214863536422910))
  (n 1 (l 680564733841876926926749214863536422910) (l 680564733841876926926749214863536422910)))) (n 3 (n 1 (l
  680564733841876926926749214863536422910) (n 1 (l 680564733841876926926749214863536422910) (l
  680564733841876926926749214863536422910))) (n 2 (n 1 (l 680564733841876926926749214863536422910) (l
  680564733841876926926749214863536422910)) (n 1 (l 680564733841876926926749214863536422910) (l
  680564733841876926926749214863536422910))))))))))

/-- Tokens that can be ahead when a tree of a class was pushed on state `b` giving state `x`. -/
def mayT : List ((Nat × Nat × Nat) × Nat) := [((165, 248, 1), 680564733841876926926749214863536422462),
  ((173, 259, 3), 680564733841876926926749179679164334078),
  ((247, 248, 1), 680564733841876926926749214863536422910),
  ((247, 312, 4), 680564733841876926926749214863536422462),
  ((248, 248, 1), 680564733841876926926749214863536422910),
  ((248, 314, 4), 680564733841876926926749214863536422462),
  ((315, 366, 2), 680564733841876926926749214863536422910)]

end Asn1go.LR
