import Verif.Src.Code.Headers
/-
  Generated by tools/c2lean.py from tests/ppextension.c.
-/
namespace Iff.Src

/-- ppextension.c:25-37 -/
def ppextension_main.code : Fun where
  params := [(.argc, (.int .int)), (.argv, (.ptr (.ptr (.int .char))))]
  ret := (.int .int)
  body :=
    (.seq (.decl .chunk (.ptr (.struct .IFF_Chunk)) (some (.call (.fn .TEST_read) (.cons (.index (.var .argv) (.num .int 1)) .nil))))
      (.ite (.bin .eq (.var .chunk) .null)
      (.ret (.num .int 1))
      (.seq (.expr (.call (.fn .TEST_print) (.cons (.var .chunk) (.cons (.num .int 0) .nil))))
        (.seq (.expr (.call (.fn .TEST_free) (.cons (.var .chunk) .nil)))
        (.ret (.num .int 0))))))

end Iff.Src
