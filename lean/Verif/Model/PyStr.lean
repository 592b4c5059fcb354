/-!
Python string operations used by the code.
-/

namespace Aeolis

/-- `str.lower`, as used for method names (for example aeolis/transport.py:319, aeolis/threshold.py:184).
Simplification: only the ASCII letters are mapped. -/
def lower (s : String) : String := String.ofList (s.toList.map Char.toLower)

end Aeolis
