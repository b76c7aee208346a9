import Verif.Src.Code.Headers
/-
  Generated by tools/c2lean.py from tests/validiff.c.
-/
namespace Iff.Src

/-- validiff.c:25-37 -/
def validiff_main.code : Fun where
  params := [(.argc, (.int .int)), (.argv, (.ptr (.ptr (.int .char))))]
  ret := (.int .int)
  body :=
    (.seq (.decl .chunk (.ptr (.struct .IFF_Chunk)) (some (.call (.fn .IFF_read) (.cons (.index (.var .argv) (.num .int 1)) (.cons .null .nil)))))
      (.ite (.bin .eq (.var .chunk) .null)
      (.ret (.num .int 1))
      (.seq (.decl .status (.int .int) (some (.not (.call (.fn .IFF_check) (.cons (.var .chunk) (.cons .null .nil))))))
        (.seq (.expr (.call (.fn .IFF_free) (.cons (.var .chunk) (.cons .null .nil))))
        (.ret (.var .status))))))

end Iff.Src
