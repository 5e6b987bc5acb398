/-!
# Basic vocabulary shared by all models

Nothing in here models a particular function of /repo; it fixes how C++ notions are rendered.
-/

namespace Verif

/-- `unsigned char` / `uint8_t` as used all over /repo
(e.g. socketcan_interface/include/socketcan_interface/interface.h:63). -/
abbrev Byte := BitVec 8

/-- `std::string` used as text (e.g. socketcan_interface/src/string.cpp:6-165).  Simplification: a C++ `char` has
256 values, `Char` has more; every C++ string is one of these lists, so theorems about all lists cover
all C++ strings. -/
abbrev Text := List Char

/-- Result of a C++ call: normal return, exception, or undefined behaviour
(out-of-bounds access and the like; e.g. socketcan_interface/src/string.cpp:114 for `dlc > 8`). -/
inductive Outcome (ε α : Type) where
  | ok (a : α)
  | throws (e : ε)
  | ub
  deriving DecidableEq, Repr

end Verif
