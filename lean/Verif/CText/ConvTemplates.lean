import Verif.CText.Lex

/-!
# The other forms of the convolution by gemm, verbatim

Generated by `tools/embed_templates.py` from `/repo/src/acetone_nnet/templates`; `embed_templates.py --check` compares.
-/

namespace Verif.CText.Tpl

/-- `templates/layers/Conv/template_Conv_gemm_nt.c.tpl` -/
def conv_gemm_nt : List Char := chars! "    // gemm_nt
    for (i = 0; i < {{m}}; ++i)
    {
        for (j = 0; j < {{n}}; ++j)
        {
            register float output =0;
            for (p = 0; p < {{k}}; ++p)
            {
                output += {{A}}[i*{{ldA}}+p]* {{#direct}}*{{/direct}}({{B}}[j*{{ldB}}+p]);
            }
            output += biases_{{name}}_{{idx}}[i];
            ctx->tensor_temp[i*{{ldC}}+j] = {{{activation_function}}};
        }
    }"

/-- `templates/layers/Conv/template_Conv_gemm_tn.c.tpl` -/
def conv_gemm_tn : List Char := chars! "    // gemm_tn
    for (i = 0; i < {{m}}; ++i)
    {
        for (p = 0; p < {{k}}; ++p)
        {
            float register weight = {{A}}[p*{{ldA}}+i];
            for (j = 0; j < {{n}}; ++j)
            {
                ctx->tensor_temp[i*{{ldC}}+j] += weight * {{#direct}}*{{/direct}}({{B}}[p*{{ldB}}+j]);
            }
            for(j = 0; j < {{n}}; ++j){
                register float output = ctx->tensor_temp[i*{{ldC}} + j];
                output += biases_{{name}}_{{idx}}[i];
                ctx->tensor_temp[i*{{ldC}} + j] = {{{activation_function}}};
            }
        }
    }"

/-- `templates/layers/Conv/template_Conv_gemm_tt.c.tpl` -/
def conv_gemm_tt : List Char := chars! "    // gemm_tt
    for (i = 0; i < {{m}}; ++i)
    {
        for (j = 0; j < {{n}}; ++j)
        {
            float register sum = 0;
            for (p = 0; p < {{k}}; ++p)
            {
                sum += {{A}}[p*{{ldA}} +i]* {{#direct}}*{{/direct}}({{B}}[j*{{ldB}}+p]);
            }
            sum += biases_{{name}}_{{idx}}[i];
            tensor_temp[i*{{ldC}}+j] = {{{activation_function}}};
        }
    }"

/-- `templates/layers/Conv/template_im2row.c.tpl` -/
def im2row : List Char := chars! "    // im2row
    for (i = 0; i < {{patches_height}}; ++i)
    {
        int i_offset = (i / {{kernel_w}}) % {{kernel_h}};
        int j_offset = i % {{kernel_w}};
        int c_offset = i / {{kernel_h}} / {{kernel_w}};
        for (h = 0; h < {{output_height}}; ++h)
        {
            for (w = 0; w < {{output_width}}; ++w)
            {
                int ii = h * {{strides}} - {{pad_top}} + i_offset;
                int jj = w * {{strides}} - {{pad_left}} + j_offset;
                int j = w*{{output_height}} + h;
                if (ii >= 0 && ii < {{input_height}} && jj >= 0 && jj < {{input_width}})
                    ctx->output_{{road}}[j*{{patches_height}} + i] = ctx->{{output_str}}[(c_offset*{{input_height}} + ii)*{{input_width}} + jj];
                else
                    ctx->output_{{road}}[j*{{patches_height}} + i] = 0;
            }
        }
    }"

/-- `templates/layers/Conv/template_Conv_indirect_gemm.c.tpl` -/
def conv_indirect_gemm : List Char := chars! "    // {{name}}_{{idx}}{{comment}} {{#original_name}}(layer {{original_name}} in  input model){{/original_name}}
    for (k = 0; k < {{size}}; ++k)
    {
        ctx->tensor_temp[k] = 0;
    }
{{{gemm_code}}}
    for (k = 0; k < {{size}}; ++k)
    {
        ctx->output_{{road}}[k] = ctx->tensor_temp[k];
    }
"

end Verif.CText.Tpl
