#!/usr/bin/env python3
"""Writes lean/Verif/CText/Templates.lean from the templates of /repo, verbatim.
usage: embed_templates.py [--check]   (--check: only compare)"""
import sys, pathlib
ROOT = pathlib.Path("/repo/src/acetone_nnet/templates")
OUT = pathlib.Path(__file__).resolve().parent.parent / "lean/Verif/CText/Templates.lean"
FILES = """layers/template_Dense layers/template_MatMul layers/template_Tile layers/template_Softmax
layers/template_Broadcast layers/template_BatchNormalization layers/template_Concatenate layers/template_Gather
layers/template_GatherElements layers/template_Input_Layer layers/template_Pooling2D layers/template_Reduce
layers/template_Transpose layers/template_constant layers/template_Flatten layers/Gemm/template_Gemm
layers/Gemm/template_gemm_nn layers/Gemm/template_gemm_nt layers/Gemm/template_gemm_tn layers/Gemm/template_gemm_tt
layers/Conv/template_Conv_6loops layers/Conv/template_Conv_std_gemm layers/Conv/template_Conv_gemm_nn
layers/Conv/template_im2col layers/Conv/template_Conv_direct_block
layers/Pad/template_Constant_Pad layers/Pad/template_Pad_Non_Constant layers/Pad/template_Edge_Pad
layers/Pad/template_Reflect_Pad layers/Pad/template_Wrap_Pad layers/Resize/template_ResizeNearest
layers/Resize/template_ResizeLinear1D layers/Resize/template_ResizeLinear2D layers/Resize/template_ResizeCubic1D
layers/Resize/template_ResizeCubic2D memory_layout/template_output template_source_file""".split()
# the other files that the generator writes, in lean/Verif/CText/FileTemplates.lean
OTHER = """template_header_file template_parameter_file template_global_var_file""".split()
# what is written around the layers, in lean/Verif/CText/MoreTemplates.lean
MORE = """normalization/template_pre_processing normalization/template_post_processing
normalization/template_normalization_cst_in_global_var_file normalization/template_normalization_cst_in_header_file
layers/Conv/template_Conv_DW_HWC layers/template_Pooling2D_HWC""".split()
# the other forms of the convolution by gemm, in lean/Verif/CText/ConvTemplates.lean
CONV = """layers/Conv/template_Conv_gemm_nt layers/Conv/template_Conv_gemm_tn layers/Conv/template_Conv_gemm_tt
layers/Conv/template_im2row layers/Conv/template_Conv_indirect_gemm""".split()
def esc(s): return s.replace("\\", "\\\\").replace('"', '\\"')
def embed(files, title):
    out = ["import Verif.CText.Lex\n\n/-!\n# " + title + "\n\nGenerated by `tools/embed_templates.py` from "
           "`/repo/src/acetone_nnet/templates`; `embed_templates.py --check` compares.\n-/\n\nnamespace Verif.CText.Tpl\n"]
    for f in files:
        name = f.split("/")[-1].replace("template_", "")
        name = name[0].lower() + name[1:]
        out.append(f"\n/-- `templates/{f}.c.tpl` -/\ndef {name} : List Char := chars! \"{esc((ROOT / (f + '.c.tpl')).read_text())}\"\n")
    out.append("\nend Verif.CText.Tpl\n")
    return "".join(out)
texts = [(OUT, embed(FILES, "The templates, verbatim")), (OUT.parent / "FileTemplates.lean", embed(OTHER, "The templates of the other files, verbatim")),
    (OUT.parent / "MoreTemplates.lean", embed(MORE, "More templates, verbatim")),
    (OUT.parent / "ConvTemplates.lean", embed(CONV, "The other forms of the convolution by gemm, verbatim"))]
if "--check" in sys.argv:
    ok = all(p.read_text() == t for p, t in texts)
    print("identical" if ok else "DIFFERENT"); sys.exit(0 if ok else 1)
for p, t in texts:
    if not p.exists() or p.read_text() != t: p.write_text(t)
