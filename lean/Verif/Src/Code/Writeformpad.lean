import Verif.Src.Code.Headers
/-
  Generated by tools/c2lean.py from tests/writeform-pad.c.
-/
namespace Iff.Src

/-- writeform-pad.c:25-31 -/
def writeform_pad_main.code : Fun where
  params := [(.argc, (.int .int)), (.argv, (.ptr (.ptr (.int .char))))]
  ret := (.int .int)
  body :=
    (.seq (.decl .form (.ptr (.struct .IFF_Form)) (some (.call (.fn .formdata_pad_IFF_createTestForm) .nil)))
      (.seq (.decl .status (.int .int) (some (.not (.call (.fn .IFF_write) (.cons (.str "hello-pad.TEST") (.cons (.cast (.ptr (.struct .IFF_Chunk)) (.var .form)) (.cons .null .nil)))))))
      (.seq (.expr (.call (.fn .IFF_free) (.cons (.cast (.ptr (.struct .IFF_Chunk)) (.var .form)) (.cons .null .nil))))
      (.ret (.var .status)))))

end Iff.Src
