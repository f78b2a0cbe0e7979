import Verif.CText.Lex

/-!
# The templates, verbatim

Generated by `tools/embed_templates.py` from `/repo/src/acetone_nnet/templates`; `embed_templates.py --check` compares.
-/

namespace Verif.CText.Tpl

/-- `templates/layers/template_Dense.c.tpl` -/
def dense : List Char := chars! "    // {{name}}_{{idx}}{{comment}} {{#original_name}}(layer {{original_name}} in  input model){{/original_name}}
    for (i = 0; i < {{size}}; ++i)
    {
        dotproduct = 0;
        for (j = 0; j < {{prev_size}}; ++j)
        {
            dotproduct += ctx->{{output_str}}[j] * weights_{{name}}_{{idx}}[((j * {{size}}) + i)];
        }
        dotproduct += biases_{{name}}_{{idx}}[i];
        ctx->tensor_temp[i] = {{{activation_function}}};

    }
    for (k = 0; k < {{size}}; ++k)
    {
        ctx->output_{{road}}[k] = ctx->tensor_temp[k];
    }"

/-- `templates/layers/template_MatMul.c.tpl` -/
def matMul : List Char := chars! "    // {{name}}_{{idx}}{{comment}} {{#original_name}}(layer {{original_name}} in  input model){{/original_name}}
    for (f = 0; f < {{output_channels}}; ++f)
    {
        for (i = 0; i < {{output_height}}; ++i)
        {
            for (j = 0; j < {{output_width}}; ++j)
            {
                ctx->tensor_temp[j + {{output_width}}*(i + {{output_height}}*f)] = 0;
                for (k = 0; k < {{shared_dimension}}; ++k)
                {
                    ctx->tensor_temp[j + {{output_width}}*(i + {{output_height}}*f)] += ctx->{{output_str_left}}[k + {{shared_dimension}}*(i + {{output_height}}*f)]*ctx->{{output_str_right}}[j + {{output_width}}*(k + {{shared_dimension}}*f)];
                }
            }
        }
    }
    for (k = 0; k < {{size}}; ++k)
    {
        ctx->output_{{road}}[k] = {{#activation}}ctx->tensor_temp[k]{{/activation}};
    }"

/-- `templates/layers/template_Tile.c.tpl` -/
def tile : List Char := chars! "    // {{name}}_{{idx}}{{comment}} {{#original_name}}(layer {{original_name}} in  input model){{/original_name}}
    for (f = 0; f < {{output_channels}}; f++)
    {
        for (i = 0; i < {{output_height}}; i++)
        {
            for (j = 0; j < {{output_width}}; j++)
            {
                ctx->tensor_temp[j + {{output_width}}*(i + {{output_height}}*f)] = ctx->{{output_str}}[(j%{{input_width}}) + {{input_width}}*((i%{{input_height}}) + {{input_height}}*(f%{{input_channels}}))];
            }
        }
    }
    for (k = 0; k < {{size}}; ++k)
    {
        ctx->output_{{road}}[k] = {{{activation_function}}};
    }"

/-- `templates/layers/template_Softmax.c.tpl` -/
def softmax : List Char := chars! "    // {{name}}_{{idx}} {{#original_name}}(layer {{original_name}} in  input model){{/original_name}}
    {{#1D}}
    sum = 0;
    for (i = 0; i < {{size}}; ++i)
        sum += exp(ctx->{{output_str}}[i]);
    for (j = 0; j < {{size}}; ++j)
    {
        ctx->output_{{road}}[j] = exp(ctx->{{output_str}}[j])/sum;
        ctx->output_{{road}}[j] = {{{activation_function}}};
    }
    {{/1D}}
    {{^1D}}
    for (f = 0; f < {{sum_dimension_1}}; ++f)
    {
        for (i = 0; i < {{sum_dimension_2}}; ++i)
        {
            ctx->tensor_temp[{{reduced_position_1}}] = 0;
            for (j = 0; j < {{reduced_dimension}}; ++j)
            {
                ctx->tensor_temp[{{reduced_position_1}}] += exp(ctx->{{output_str}}[{{reduced_position_2}}]);
            }
        }
    }

    for (f = 0; f < {{output_channels}}; ++f)
    {
        for (i = 0; i < {{output_height}}; ++i)
        {
            for (j = 0; j < {{output_width}}; ++j)
            {
                ctx->output_{{road}}[j + {{output_width}}*(i +  {{output_height}}*f)] = exp(ctx->{{output_str}}[j + {{output_width}}*(i +  {{output_height}}*f)])/ctx->tensor_temp[{{softmax_indice}}];
            }
        }
    }
    {{/1D}}"

/-- `templates/layers/template_Broadcast.c.tpl` -/
def broadcast : List Char := chars! "    // {{name}}_{{idx}}{{comment}} {{#original_name}}(layer {{original_name}} in  input model){{/original_name}}
    for (f = 0; f < {{output_channels}}; ++f)
    {
        for (i = 0; i < {{output_height}}; ++i)
        {
            for (j = 0; j < {{output_width}}; ++j)
            {
                {{#max}}
                ctx->tensor_temp[j + {{output_width}}*(i + {{output_height}}*f)] = ctx->{{output_str0}}[(j%{{input_width0}}) + {{input_width0}}*((i%{{input_height0}}) + {{input_height0}}*(f % {{input_channels0}}))];
                {{#broadcast}}
                ctx->tensor_temp[j + {{output_width}}*(i + {{output_height}}*f)] = fmax(ctx->tensor_temp[j + {{output_width}}*(i + {{output_height}}*f)],ctx->{{output_str}}[(j%{{input_width}}) + {{input_width}}*((i%{{input_height}}) + {{input_height}}*(f % {{input_channels}}))]);
                {{/broadcast}}
                {{/max}}
                {{#min}}
                ctx->tensor_temp[j + {{output_width}}*(i + {{output_height}}*f)] = ctx->{{output_str0}}[(j%{{input_width0}}) + {{input_width0}}*((i%{{input_height0}}) + {{input_height0}}*(f % {{input_channels0}}))];
                {{#broadcast}}
                ctx->tensor_temp[j + {{output_width}}*(i + {{output_height}}*f)] = fmin(ctx->tensor_temp[j + {{output_width}}*(i + {{output_height}}*f)],ctx->{{output_str}}[(j%{{input_width}}) + {{input_width}}*((i%{{input_height}}) + {{input_height}}*(f % {{input_channels}}))]);
                {{/broadcast}}
                {{/min}}
                {{#Average}}
                ctx->tensor_temp[j + {{output_width}}*(i + {{output_height}}*f)] = ({{#broadcast}}ctx->{{output_str}}[(j%{{input_width}}) + {{input_width}}*((i%{{input_height}}) + {{input_height}}*(f % {{input_channels}}))]{{operator}}{{/broadcast}})/{{prev_size}};
                {{/Average}}
                {{#other}}
                ctx->tensor_temp[j + {{output_width}}*(i + {{output_height}}*f)] = {{#broadcast}}ctx->{{output_str}}[(j%{{input_width}}) + {{input_width}}*((i%{{input_height}}) + {{input_height}}*(f % {{input_channels}}))]{{operator}}{{/broadcast}}{{#constant}}{{operator}}constant_{{name}}_{{idx}}[(j%{{cst_width}}) + {{cst_width}}*((i%{{cst_height}}) + {{cst_height}}*(f % {{cst_channels}}))]{{/constant}};
                {{/other}}
            }
        }
    }
    for (k = 0; k < {{size}}; ++k)
    {
        ctx->output_{{road}}[k] = {{#activation}}ctx->tensor_temp[k]{{/activation}};
    }"

/-- `templates/layers/template_BatchNormalization.c.tpl` -/
def batchNormalization : List Char := chars! "    //{{name}}_{{idx}}{{comment}} {{#original_name}}(layer {{original_name}} in  input model){{/original_name}}
    for(f = 0; f < {{input_channels}}; ++f)
    {
        for(k = 0; k < {{channel_size}}; ++k)
        {
            ctx->output_{{path}}[k + {{channel_size}}*f] = scale_{{name}}_{{idx}}[f]*(ctx->{{output_str}}[k + {{channel_size}}*f] - mean_{{name}}_{{idx}}[f])/sqrt(var_{{name}}_{{idx}}[f] + {{epsilon}}) + biases_{{name}}_{{idx}}[f];
            {{#activation_function}}
            ctx->output_{{path}}[k + {{channel_size}}*f] = {{{activation_function}}};
            {{/activation_function}}
        }
    }"

/-- `templates/layers/template_Concatenate.c.tpl` -/
def concatenate : List Char := chars! "    // {{name}}_{{idx}}{{comment}} {{#original_name}}(layer {{original_name}} in  input model){{/original_name}}
    for (f = 0; f < {{output_channels}}; f++)
    {
        for (i = 0; i < {{output_height}}; i++)
        {
            for (j = 0; j < {{output_width}}; j++)
            {
                {{#concat}}
                    {{#channels}}
                if((f < {{borne_sup}}) && (f >= {{borne_inf}}))
                    ctx->tensor_temp[j + {{output_width}}*(i + {{output_height}}*f)] = ctx->{{output_str}}[j + {{input_width}}*(i + {{input_height}}*(f - {{borne_inf}}))];
                    {{/channels}}
                    {{#heights}}
                if((i < {{borne_sup}}) && (i >= {{borne_inf}}))
                    ctx->tensor_temp[j + {{output_width}}*(i + {{output_height}}*f)] = ctx->{{output_str}}[j + {{input_width}}*((i - {{borne_inf}}) + {{input_height}}*f)];
                    {{/heights}}
                    {{#widths}}
                if((j < {{borne_sup}}) && (j >= {{borne_inf}}))
                    ctx->tensor_temp[j + {{output_width}}*(i + {{output_height}}*f)] = ctx->{{output_str}}[(j - {{borne_inf}}) + {{input_width}}*(i + {{input_height}}*f)];
                    {{/widths}}
                {{/concat}}
            }
        }
    }
    for (k = 0; k < {{size}}; ++k)
    {
        ctx->output_{{road}}[k] = {{{activation_function}}};
    }"

/-- `templates/layers/template_Gather.c.tpl` -/
def gather : List Char := chars! "    // {{name}}_{{idx}}{{comment}} {{#original_name}}(layer {{original_name}} in  input model){{/original_name}}

    position = 0;

    {{#channels}}
    for (k = 0; k < {{indices_len}}; ++k)
    {
        f = indice_Gather_{{idx}}[k];
        for (i = 0; i < {{output_height}}; ++i)
        {
            for (j = 0; j < {{output_width}}; ++j)
            {
    {{/channels}}
    {{#heights}}
    for (f = 0; f < {{output_channels}}; ++f)
    {
        for (k = 0; k < {{indices_len}}; ++k)
        {
            i = indice_Gather_{{idx}}[k];
            for (j = 0; j < {{output_width}}; ++j)
            {
    {{/heights}}
    {{#widths}}
    for (f = 0; f < {{output_channels}}; ++f)
    {
        for (i = 0; i < {{output_height}}; ++i)
        {
            for (k = 0; k < {{indices_len}}; ++k)
            {
                j = indice_Gather_{{idx}}[k];
    {{/widths}}
                ctx->tensor_temp[position] = ctx->{{output_str}}[j + {{input_width}}*(i + {{input_height}}*f)];
                ctx->tensor_temp[position] = {{{activation_function}}};
                position++;
            }
        }
    }
    for (k = 0; k < {{size}}; ++k)
    {
        ctx->output_{{road}}[k] = ctx->tensor_temp[k];
    }"

/-- `templates/layers/template_GatherElements.c.tpl` -/
def gatherElements : List Char := chars! "    // {{name}}_{{idx}}{{comment}} {{#original_name}}(layer {{original_name}} in  input model){{/original_name}}
    for (f = 0; f < {{output_channels}}; f++)
    {
        for (i = 0; i < {{output_height}}; i++)
        {
            for (j = 0; j < {{output_width}}; j++)
            {
                {{#channels}}
                ctx->tensor_temp[j + {{output_width}}*(i + {{output_height}}*f)] = ctx->{{output_str}}[j + {{input_width}}*(i + {{input_height}}*indice_Gather_{{idx}}[j + {{output_width}}*(i + {{output_height}}*f)])];
                {{/channels}}
                {{#heights}}
                ctx->tensor_temp[j + {{output_width}}*(i + {{output_height}}*f)] = ctx->{{output_str}}[j + {{input_width}}*(indice_Gather_{{idx}}[j + {{output_width}}*(i + {{output_height}}*f)] + {{input_height}}*f)];
                {{/heights}}
                {{#widths}}
                ctx->tensor_temp[j + {{output_width}}*(i + {{output_height}}*f)] = ctx->{{output_str}}[indice_Gather_{{idx}}[j + {{output_width}}*(i + {{output_height}}*f)] + {{input_width}}*(i + {{input_height}}*f)];
                {{/widths}}
            }
        }
    }
    for (k = 0; k < {{size}}; ++k)
    {
        ctx->output_{{road}}[k] = {{{activation_function}}};
    }"

/-- `templates/layers/template_Input_Layer.c.tpl` -/
def input_Layer : List Char := chars! "    // {{name}}_{{idx}} {{#original_name}}(layer {{original_name}} in  input model){{/original_name}}
{{#keep_channels}}
    for (k = 0; k < {{size}}; ++k)
    {
        ctx->output_{{road}}[k] = nn_input[k];
    }
{{/keep_channels}}
{{#channels_first_to_last}}
    // Loading the input and channels first to channels last
    for(f = 0; f < {{input_channels}}; ++f)
    {
        for (i = 0; i < {{input_height}}; ++i)
        {
            for (j = 0; j < {{input_width}};  ++j)
            {
                ctx->output_{{road}}[(i*{{input_width}} + j)*{{input_channels}} + f] = nn_input[(i + {{input_height}}*f)*{{input_width}} + j];
            }
        }
    }
{{/channels_first_to_last}}
{{#channels_last_to_first}}
    // Loading the input and channels last to channels first
    for(f = 0; f < {{input_channels}}; ++f)
    {
        for (i = 0; i < {{input_height}}; ++i)
        {
            for (j = 0; j < {{input_width}};  ++j)
            {
                ctx->output_{{road}}[(i + {{input_height}}*f)*{{input_width}} + j] = nn_input[(i*{{input_width}} + j)*{{input_channels}} + f];
            }
        }
    }
{{/channels_last_to_first}}
"

/-- `templates/layers/template_Pooling2D.c.tpl` -/
def pooling2D : List Char := chars! "    // {{name}}_{{idx}}{{comment}} CHW layout {{#original_name}}(layer {{original_name}} in  input model){{/original_name}}
    for (f = 0; f < {{input_channels}}; ++f)
    {
        for (i = 0; i < {{output_height}}; ++i)
        {
            for (j = 0; j < {{output_width}}; ++j)
            {
                {{{update_local_vars}}}
                for (h = 0; h < {{pool_size}}; ++h)
                {
                    for (w = 0; w < {{pool_size}}; ++w)
                    {
                        int ii = i*{{strides}} + h - {{pad_left}};
                        int jj = j*{{strides}} + w - {{pad_top}};
                        if (ii >= 0 && ii < {{input_height}} && jj >= 0 && jj < {{input_width}})
                        {
                            {{{specific_function}}}
                        }
                    }
                }
                ctx->tensor_temp[j + {{output_width}}*(i + {{output_height}}*f)] = {{{activation_function}}};
            }
        }
    }

    for (k = 0; k < {{size}}; ++k)
    {
        ctx->output_{{road}}[k] = ctx->tensor_temp[k];
    }"

/-- `templates/layers/template_Reduce.c.tpl` -/
def reduce : List Char := chars! "    // {{name}}_{{idx}}{{comment}} {{#original_name}}(layer {{original_name}} in  input model){{/original_name}}
    {{#all}}
    reduced = {{{starting_value}}};
    for (k = 0; k < {{size}}; ++k)
    {
        {{#Max}}
        if (ctx->{{output_str}}[k] > reduced)
        {
            reduced = ctx->{{output_str}}[k];
        }
        {{/Max}}
        {{#Min}}
        if (ctx->{{output_str}}[k] < reduced)
        {
            reduced = ctx->{{output_str}}[k];
        }
        {{/Min}}
        {{#Other}}
        reduced {{func}}= ctx->{{output_str}}[k];
        {{/Other}}
    }
    {{#Mean}}
    reduced = reduced/{{size}};
    {{/Mean}}

    ctx->output_{{road}}[0] = {{{activation_function}}};
    {{/all}}
    {{#two}}
    for (f = 0; f < {{output_dimension}}; ++f)
    {
        ctx->tensor_temp[f] = {{{starting_value}}};

        for (i = 0; i < {{reduced_dimension_1}}; ++i)
        {
            for (j = 0; j < {{reduced_dimension_2}}; ++j)
            {
                {{#Max}}
                if (ctx->output_{{road}}[{{position}}] > ctx->tensor_temp[f])
                {
                    ctx->tensor_temp[f] = ctx->{{output_str}}[{{position}}];
                }
                {{/Max}}
                {{#Min}}
                if (ctx->output_{{road}}[{{position}}] < ctx->tensor_temp[f])
                {
                    ctx->tensor_temp[f] = ctx->{{output_str}}[{{position}}];
                }
                {{/Min}}
                {{#Other}}
                ctx->tensor_temp[f] {{func}}= ctx->{{output_str}}[{{position}}];
                {{/Other}}
            }
        }
        {{#Mean}}
        ctx->tensor_temp[f] = ctx->tensor_temp[f]/{{nb_elements}};
        {{/Mean}}
    }

    for (k = 0; k < {{size}}; ++k)
    {
        ctx->output_{{road}}[k] = {{{activation_function}}};
    }
    {{/two}}
    {{#one}}
    for (f = 0; f < {{output_dimension_1}}; ++f)
    {
        for (i = 0; i < {{output_dimension_2}}; ++i)
        {
            ctx->tensor_temp[{{position_1}}] = {{{starting_value}}};
            for (j = 0; j < {{reduced_dimension}}; ++j)
            {
                {{#Max}}
                if (ctx->{{output_str}}[{{position_2}}] > ctx->tensor_temp[{{position_1}}])
                {
                    ctx->tensor_temp[{{position_1}}] = ctx->{{output_str}}[{{position_2}}];
                }
                {{/Max}}
                {{#Min}}
                if (ctx->{{output_str}}[{{position_2}}] < ctx->tensor_temp[{{position_1}}])
                {
                    ctx->tensor_temp[{{position_1}}] = ctx->{{output_str}}[{{position_2}}];
                }
                {{/Min}}
                {{#Other}}
                ctx->tensor_temp[{{position_1}}] {{func}}= ctx->{{output_str}}[{{position_2}}];
                {{/Other}}
            }
            {{#Mean}}
            ctx->tensor_temp[{{position_1}}] = ctx->tensor_temp[{{position_1}}]/{{reduced_dimension}};
            {{/Mean}}
        }
    }
    
    for (k = 0; k < {{size}}; ++k)
    {
        ctx->output_{{road}}[k] = {{{activation_function}}};
    }
    {{/one}}
    {{#none}}
    //Act like a Linear layer
    for (k = 0; k < {{size}}; ++k)
    {
        ctx->output_{{road}}[k] = {{{activation_function}}};
    }
    {{/none}}"

/-- `templates/layers/template_Transpose.c.tpl` -/
def transpose : List Char := chars! "    // {{name}}_{{idx}}{{comment}} {{#original_name}}(layer {{original_name}} in  input model){{/original_name}}
    for (f = 0; f < {{output_channels}}; f++)
    {
        for (i = 0; i < {{output_height}}; i++)
        {
            for (j = 0; j < {{output_width}}; j++)
            {
                ctx->tensor_temp[j + {{output_width}}*(i + {{output_height}}*f)] = ctx->{{output_str}}[{{a}} + {{input_width}}*({{b}} + {{input_height}}*{{c}})];
            }
        }
    }
    for (k = 0; k < {{size}}; ++k)
    {
        ctx->output_{{road}}[k] = {{{activation_function}}};
    }"

/-- `templates/layers/template_constant.c.tpl` -/
def constant : List Char := chars! "    // {{name}}_{{idx}} {{#original_name}}(layer {{original_name}} in  input model){{/original_name}}
    // Load the constant
    {{#size}}
    for (k = 0; k < {{size}}; ++k)
    {
        ctx->output_{{road}}[k] = {{ weights_var }}[k];
    }
    {{/size}}"

/-- `templates/layers/template_Flatten.c.tpl` -/
def flatten : List Char := chars! "{{#channels_last}}
    //{{name}}_{{idx}}  {{#original_name}}(layer {{original_name}} in  input model){{/original_name}}
    // To transforme the tensor in channels_last before entering the 1D layers
    for(f = 0; f < {{input_channels}}; ++f)
    {
        for (i = 0; i < {{input_height}}; ++i)
        {
            for (j = 0; j < {{input_width}};  ++j)
            {
                ctx->tensor_temp[(i*{{input_width}} + j)*{{input_channels}} + f] = ctx->output_{{path}}[(f*{{input_height}} + i)*{{input_width}} + j];
            }
        }
    }
    for (k = 0; k < {{size}}; ++k)
    {
        ctx->output_{{path}}[k] = ctx->tensor_temp[k];
    }
{{/channels_last}}"

/-- `templates/layers/Gemm/template_Gemm.c.tpl` -/
def gemm : List Char := chars! "    // {{name}}_{{idx}}{{comment}} {{#original_name}}(layer {{original_name}} in  input model){{/original_name}}
    for (k = 0; k < {{patches_size}}; ++k)
    {
        ctx->tensor_temp[k] = 0;
    }
{{{gemm_code}}}
    for (k = 0; k < {{size}}; ++k)
    {
        ctx->output_{{road}}[k] = ctx->tensor_temp[k];
    }"

/-- `templates/layers/Gemm/template_gemm_nn.c.tpl` -/
def gemm_nn : List Char := chars! "    // gemm_nn
    for (i = 0; i < {{m}}; ++i)
    {
        for(j = 0; j< {{n}}; ++j)
        {
            register float output = 0;
            for (p = 0; p < {{k}}; ++p)
            {
                output += {{#alpha}}{{.}}*{{/alpha}}ctx->{{A}}[(i * {{k}}) + p]*({{B}}[(p * {{n}}) + j]);
            }
            output += {{#beta}}{{.}}*{{/beta}}biases_{{name}}_{{idx}}[j];
            ctx->tensor_temp[(i * {{n}}) + j] = {{{activation_function}}};
        }
    }"

/-- `templates/layers/Gemm/template_gemm_nt.c.tpl` -/
def gemm_nt : List Char := chars! "    // gemm_nt
    for (i = 0; i < {{m}}; ++i)
    {
        for (j = 0; j < {{n}}; ++j)
        {
            register float output = 0;
            for (p = 0; p < {{k}}; ++p)
            {
                output += {{#alpha}}{{.}}*{{/alpha}}ctx->{{A}}[(i * {{k}}) + p]*({{B}}[(j * {{k}}) + p]);
            }
            output += {{#beta}}{{.}}*{{/beta}}biases_{{name}}_{{idx}}[j];
            ctx->tensor_temp[i*{{n}}+j] = {{{activation_function}}};
        }
    }"

/-- `templates/layers/Gemm/template_gemm_tn.c.tpl` -/
def gemm_tn : List Char := chars! "    // gemm_tn
    for (i = 0; i < {{m}}; i++)
    {
        for(j = 0; j < {{n}}; ++j)
        {
            float register output = 0;
            for (p = 0; p < {{k}}; ++p)
            {
                output += {{#alpha}}{{.}}*{{/alpha}}ctx->{{A}}[p*{{m}}+i]*{{#direct}}*{{/direct}}({{B}}[p*{{n}}+j]);
            }   
            output += {{#beta}}{{.}}*{{/beta}}biases_{{name}}_{{idx}}[j];
            ctx->tensor_temp[i*{{n}} + j] = {{{activation_function}}};
        }
    }"

/-- `templates/layers/Gemm/template_gemm_tt.c.tpl` -/
def gemm_tt : List Char := chars! "    // gemm_tt
    for (i = 0; i < {{m}}; ++i)
    {
        for (j = 0; j < {{n}}; ++j)
        {
            float register sum = 0;
            for (p = 0; p < {{k}}; ++p)
            {
                sum += {{#alpha}}{{.}}*{{/alpha}}ctx->{{A}}[p*{{m}} +i]*{{#direct}}*{{/direct}}({{B}}[j*{{k}}+p]);
            }
            sum += {{#beta}}{{.}}*{{/beta}}biases_{{name}}_{{idx}}[j];
            ctx->tensor_temp[i*{{n}}+j] = {{{activation_function}}};
        }
    }"

/-- `templates/layers/Conv/template_Conv_6loops.c.tpl` -/
def conv_6loops : List Char := chars! "    // {{name}}_{{idx}}{{comment}} {{#original_name}}(layer {{original_name}} in  input model){{/original_name}}
    for (f = 0; f < {{nb_filters}}; ++f)
    {
        for (i = 0; i < {{output_height}}; ++i)
        {
            for (j = 0; j < {{output_width}}; ++j)
            {
                sum = 0;
                for (p = 0; p < {{input_channels}}; ++p)
                {
                    for (h = 0; h < {{kernel_h}}; ++h)
                    {
                        for (w = 0; w < {{kernel_w}}; ++w)
                        {
                            int ii = i*{{strides}} + h*{{dilation_rate}} - {{pad_top}};
                            int jj = j*{{strides}} + w*{{dilation_rate}} - {{pad_left}};

                            if (ii >= 0 && ii < {{input_height}} && jj >= 0 && jj < {{input_width}})
                                sum += ctx->{{output_str}}[jj + {{input_width}}*(ii + {{input_height}}*p)] * weights_{{name}}_{{idx}}[w + {{kernel_w}}*(h + {{kernel_h}}*(p + {{input_channels}}*f))];
                        }
                    }
                }
                sum += biases_{{name}}_{{idx}}[f];
                ctx->tensor_temp[j + {{output_width}}*(i + {{output_height}}*f)] = {{{activation_function}}};
            }
        }
    }
    for (k = 0; k < {{size}}; ++k)
    {
        ctx->output_{{road}}[k] = ctx->tensor_temp[k];
    }"

/-- `templates/layers/Conv/template_Conv_std_gemm.c.tpl` -/
def conv_std_gemm : List Char := chars! "    // {{name}}_{{idx}}{{comment}} {{#original_name}}(layer {{original_name}} in  input model){{/original_name}}
    {{#cst}}
    for (k = 0; k < {{input_size}}; ++k)
    {
        ctx->tensor_temp[k] = ctx->output_{{road}}[k];
    }
    {{/cst}}
{{{patch_building_code}}}
    for (k = 0; k < {{patches_size}}; ++k)
    {
        ctx->tensor_temp[k] = 0;
    }
{{{gemm_code}}}
    for (k = 0; k < {{size}}; ++k)
    {
        ctx->output_{{road}}[k] = ctx->tensor_temp[k];
    }"

/-- `templates/layers/Conv/template_Conv_gemm_nn.c.tpl` -/
def conv_gemm_nn : List Char := chars! "    // gemm_nn
    for (i = 0; i < {{m}}; ++i)
    {
        for (p = 0; p < {{k}}; ++p)
        {
            register float weight = {{A}}[i*{{ldA}}+p];
            for(j = 0; j < {{n}}; ++j)
            {
                ctx->tensor_temp[i*{{ldC}} + j] += weight * {{#direct}}*{{/direct}}(ctx->{{B}}[p*{{ldB}} + j]);
            }
        }
        for(j = 0; j < {{n}}; ++j)
        {
            register float output = ctx->tensor_temp[i*{{ldC}} + j];
            output += biases_{{name}}_{{idx}}[i];
            ctx->tensor_temp[i*{{ldC}} + j] = {{{activation_function}}};
        }
    }"

/-- `templates/layers/Conv/template_im2col.c.tpl` -/
def im2col : List Char := chars! "    // im2col
    for (i = 0; i < {{patches_height}}; ++i)
    {
        int i_offset = (i / {{kernel_w}}) % {{kernel_h}};
        int j_offset = i % {{kernel_w}};
        int c_offset = i / {{kernel_h}} / {{kernel_w}};
        
        for (h = 0; h < {{output_height}}; ++h)
        {
            for (w = 0; w < {{output_width}}; ++w)
            {
                int ii = h * {{strides}} - {{pad_top}} + i_offset;
                int jj = w * {{strides}} - {{pad_left}} + j_offset;

                int j = h*{{output_width}} + w;
                if (ii >= 0 && ii < {{input_height}} && jj >= 0 && jj < {{input_width}})
                    ctx->output_{{road}}[i*{{patches_width}} + j] = ctx->{{output_str}}[(c_offset*{{input_height}} + ii)*{{input_width}} + jj];
                else
                    ctx->output_{{road}}[i*{{patches_width}} + j] = 0;
            }
        }
    }"

/-- `templates/layers/Conv/template_Conv_direct_block.c.tpl` -/
def conv_direct_block : List Char := chars! "    /* {{name}}_{{idx}} {{KH}}x{{KW}} {{comment}} {{#original_name}}(layer {{original_name}} in  input model){{/original_name}}
     * Input [H][W][C]:[{{H_in}}][{{W_in}}][{{C}}]
     * Output [H][W][K]:[{{H_out}}][{{W_out}}][{{K}}]
     * stride:{{STRIDE}} pad:{{PAD}}
     * Bloc C:{{NB_BLOCK_C}}x{{BLOCK_C}} Bloc K:{{NB_BLOCK_K}}x{{BLOCK_K}}
     */

    for (int bk = 0; bk < {{NB_BLOCK_K}}; ++bk) {
        const int k_base = bk * {{BLOCK_K}};
        for (int oh = 0; oh < {{H_out}}; ++oh) {
            const int kh_s = ({{PAD}} - oh * {{STRIDE}} > 0) ? ({{PAD}} - oh * {{STRIDE}}) : 0;
            const int kh_e = ({{KH}} < ({{H_in}} + {{PAD}} - oh * {{STRIDE}})) ? {{KH}} : ({{H_in}} + {{PAD}} - oh * {{STRIDE}});
            for (int ow = 0; ow < {{W_out}}; ++ow) {
                const int kw_s = ({{PAD}} - ow * {{STRIDE}} > 0) ? ({{PAD}} - ow * {{STRIDE}}) : 0;
                const int kw_e = ({{KW}} < ({{W_in}} + {{PAD}} - ow * {{STRIDE}})) ? {{KW}} : ({{W_in}} + {{PAD}} - ow * {{STRIDE}});
                
                float* restrict o_ptr = &ctx->tensor_temp[(oh * {{W_out}} * {{K}}) + (ow * {{K}}) + k_base];
                for (int k = 0; k < {{BLOCK_K}}; ++k) 
                    o_ptr[k] = biases_{{name}}_{{idx}}[k_base + k];

                for (int bc = 0; bc < {{NB_BLOCK_C}}; ++bc) {
                    const int c_base = bc * {{BLOCK_C}};
                    for (int kh = kh_s; kh < kh_e; ++kh) {
                        const int ih = oh * {{STRIDE}} - {{PAD}} + kh;
                        for (int kw = kw_s; kw < kw_e; ++kw) {
                            const int iw = ow * {{STRIDE}} - {{PAD}} + kw;
                            const float* restrict i_ptr = &ctx->{{output_str}}[(ih * {{W_in}} + iw) * {{BLOCK_C}}*{{NB_BLOCK_C}} + c_base];
                            const float* restrict w_ptr_base = &weights_{{name}}_{{idx}}[((((bk * {{NB_BLOCK_C}} + bc) * {{KH}} + kh) * {{KW}} + kw) * {{BLOCK_C}} * {{BLOCK_K}})];
                            for (int c = 0; c < {{BLOCK_C}}; ++c) {
                                float iv = i_ptr[c];
                                #pragma omp simd
                                for (int k = 0; k < {{BLOCK_K}}; ++k) 
                                    o_ptr[k] += iv * w_ptr_base[c * {{BLOCK_K}} + k];
                            }
                        }
                    }
                }
            }
        }
    }
    for (k = 0; k < {{size}}; ++k)
    {
        {{#activation_function}}
        ctx->output_{{road}}[k] = {{{activation_function}}};
        {{/activation_function}}
        {{^activation_function}}
        ctx->output_{{road}}[k] = ctx->tensor_temp[k];
        {{/activation_function}}
    }
"

/-- `templates/layers/Pad/template_Constant_Pad.c.tpl` -/
def constant_Pad : List Char := chars! "    // {{name}}_{{idx}}{{comment}} {{#original_name}}(layer {{original_name}} in  input model){{/original_name}}
    for (f = 0; f < {{output_channels}}; ++f)
    {
        for (i = 0; i < {{output_height}}; ++i)
        {
            for (j = 0; j < {{output_width}}; ++j)
            {
                if((f >= {{pads_front}}) && (f < {{channels_without_pads_back}}) && (i >= {{pads_top}}) && (i < {{height_without_pads_bottom}}) && (j >= {{pads_left}}) && (j <{{width_without_pads_right}}))
                {
                    ctx->tensor_temp[j + {{output_width}} * (i + {{output_height}} * f)] = ctx->{{output_str}}[(j -{{pads_left}}) + {{input_width}} * ((i - {{pads_top}}) + {{input_height}} * (f - {{pads_front}}))];
                }
                else
                {
                    ctx->tensor_temp[j + {{output_width}} * (i + {{output_height}} * f)] = {{constant}};
                }
                ctx->tensor_temp[j + {{output_width}} * (i + {{output_height}} * f)] = {{{activation_function}}};
            }
        }
    }
    for(k = 0; k < {{size}}; ++k)
    {
        ctx->output_{{road}}[k] = ctx->tensor_temp[k];
    }"

/-- `templates/layers/Pad/template_Pad_Non_Constant.c.tpl` -/
def pad_Non_Constant : List Char := chars! "    // {{name}}_{{idx}}{{comment}} {{#original_name}}(layer {{original_name}} in  input model){{/original_name}}
    for (f = 0; f < {{output_channels}}; ++f)
    {
        for (i = 0; i < {{output_height}}; ++i)
        {
            for (j = 0; j < {{output_width}}; ++j)
            {
                int new_f = f - {{pads_front}};
                int new_i = i - {{pads_top}};
                int new_j = j - {{pads_left}};

                {{{change_indice}}}

                ctx->tensor_temp[j + {{output_width}} * (i + {{output_height}} * f)] = ctx->{{output_str}}[new_j + {{input_width}} * (new_i + {{input_height}} * new_f)];
                {{^linear}}
                ctx->tensor_temp[j + {{output_width}} * (i + {{output_height}} * f)] = {{{activation_function}}};
                {{/linear}}
                {{#activation_function}}
                ctx->tensor_temp[j + {{output_width}} * (i + {{output_height}} * f)] = {{{activation_function}}};
                {{/activation_function}}
            }
        }
    }
    for(k = 0; k < {{size}}; ++k)
    {
        ctx->output_{{road}}[k] = ctx->tensor_temp[k];
    }"

/-- `templates/layers/Pad/template_Edge_Pad.c.tpl` -/
def edge_Pad : List Char := chars! "                if(f < {{pads_front}})
                {
                    new_f = 0;
                }
                if(f >= {{channels_and_pad_front}})
                {
                    new_f = {{channels}};
                }

                if(i < {{pads_top}})
                {
                    new_i = 0;
                }
                if(i >= {{height_and_pad_top}})
                {
                    new_i = {{height}};
                }


                if(j < {{pads_left}})
                {
                    new_j = 0;
                }
                if(j >= {{width_and_pad_left}})
                {
                    new_j = {{width}};
                }"

/-- `templates/layers/Pad/template_Reflect_Pad.c.tpl` -/
def reflect_Pad : List Char := chars! "                new_f = ({{pads_front}} - f) % (2*{{channels_max}});
                if(new_f < 0)
                {
                    new_f = 2*{{channels_max}} + new_f;
                }
                if(new_f > {{channels_max}})
                {
                    new_f = 2*{{channels_max}} - new_f;
                }

                new_i = ({{pads_top}} - i) % (2*{{height_max}});
                if(new_i < 0)
                {
                    new_i = 2*{{height_max}} + new_i;
                }
                if(new_i > {{height_max}})
                {
                    new_i = 2*{{height_max}} - new_i;
                }

                new_j = ({{pads_left}} - j) % (2*{{width_max}});
                if(new_j < 0)
                {
                    new_j = 2*{{width_max}} + new_j;
                }
                if(new_j > {{width_max}})
                {
                    new_j = 2*{{width_max}} - new_j;
                }"

/-- `templates/layers/Pad/template_Wrap_Pad.c.tpl` -/
def wrap_Pad : List Char := chars! "                if(f >= {{channels_and_pad_front}})
                {
                    new_f = (new_f) % ({{input_channels}});
                }
                if(f < {{pads_front}})
                {
                    new_f = (new_f) % ({{input_channels}}) +  {{input_channels}};
                }

                if(i >= {{height_and_pad_top}})
                {
                    new_i = (new_i) % ({{input_height}});
                }
                if(i < {{pads_top}})
                {
                    new_i = (new_i) % ({{input_height}}) + {{input_height}};
                }

                if(j >= {{width_and_pad_left}})
                {
                    new_j = (new_j) % ({{input_width}});
                }
                if(j < {{pads_left}})
                {
                    new_j = (new_j) % ({{input_width}}) + {{input_width}};
                }"

/-- `templates/layers/Resize/template_ResizeNearest.c.tpl` -/
def resizeNearest : List Char := chars! "    // {{name}}_{{idx}}{{comment}} {{#original_name}}(layer {{original_name}} in  input model){{/original_name}}
    for (f = 0; f < {{output_channels}}; ++f)
    {
        for (i = 0; i < {{output_height}}; ++i)
        {
            for(j = 0; j < {{output_width}}; ++j)
            {
                {{{coordinate_transformation_mode_x}}}
                {{{coordinate_transformation_mode_y}}}
                {{nearest_mode_x}}
                {{nearest_mode_y}}
                ctx->tensor_temp[j + {{output_width}}*(i + {{output_height}}*f)] = {{{activation_function}}};
            }
        }
    }

    for(k = 0; k < {{size}}; ++k)
    {
        ctx->output_{{road}}[k] = ctx->tensor_temp[k];
    }"

/-- `templates/layers/Resize/template_ResizeLinear1D.c.tpl` -/
def resizeLinear1D : List Char := chars! "    // {{name}}_{{idx}}{{comment}} {{#original_name}}(layer {{original_name}} in  input model){{/original_name}}
    x1 = {{len_dimension}};
    x0 = 0;

    for (f = 0; f < {{output_channels}}; ++f)
    {
        f11 = ctx->{{output_str}}[x0 + {{dimension}}*f];
        f22 = ctx->{{output_str}}[x1 + {{dimension}}*f];

        for (i = 0; i < {{output_height}}; ++i)
        {
            for(j = 0; j < {{output_width}}; ++j)
            {
                {{{coordinate_transformation_mode}}}
                x = x<x0 ? x0 : (x>x1 ? x1: x);

                ctx->tensor_temp[j + {{output_width}}*(i + {{output_height}}*f)] = (f11*(x1 - x) + f22*(x - x0))/(x1 - x0);
                ctx->tensor_temp[j + {{output_width}}*(i + {{output_height}}*f)] = {{{activation_function}}};
            }
        }
    }

    for(k = 0; k < {{size}}; ++k)
    {
        ctx->output_{{road}}[k] = ctx->tensor_temp[k];
    }"

/-- `templates/layers/Resize/template_ResizeLinear2D.c.tpl` -/
def resizeLinear2D : List Char := chars! "    // {{name}}_{{idx}}{{comment}} {{#original_name}}(layer {{original_name}} in  input model){{/original_name}}

    for (f = 0; f < {{output_channels}}; ++f)
    {
        for (i = 0; i < {{output_height}}; ++i)
        {
            for(j = 0; j < {{output_width}}; ++j)
            {
                {{{coordinate_transformation_mode_x}}}
                {{{coordinate_transformation_mode_y}}}
                x = x<0 ? 0 : (x>{{len_height}} ? {{len_height}}: x);
                y = y<0 ? 0 : (y>{{len_width}} ? {{len_width}}: y);

                x1 = floor(x) + 1;
                x0 = floor(x);
                y0 = floor(y);
                y1 = floor(y) + 1;

                f11 = ctx->{{output_str}}[y0 + {{input_width}}*(x0 + {{input_height}}*f)];
                f21 = x1 >= {{input_height}} ? 0 : ctx->{{output_str}}[y0 + {{input_width}}*(x1 + {{input_height}}*f)];
                f22 = x1 >= {{input_height}} || y1 >= {{input_width}}? 0 : ctx->{{output_str}}[y1 + {{input_width}}*(x1 + {{input_height}}*f)];
                f12 = y1 >= {{input_width}} ? 0 : ctx->{{output_str}}[y1 + {{input_width}}*(x0 + {{input_height}}*f)];

                ctx->tensor_temp[j + {{output_width}}*(i + {{output_height}}*f)] = (f11*(x1 - x)*(y1 - y) + f21*(x - x0)*(y1 - y) + f12*(x1 - x)*(y - y0) + f22*(x - x0)*(y - y0))/((x1 - x0)*(y1 - y0));
                ctx->tensor_temp[j + {{output_width}}*(i + {{output_height}}*f)] = {{{activation_function}}};
            }
        }
    }

    for(k = 0; k < {{size}}; ++k)
    {
        ctx->output_{{road}}[k] = ctx->tensor_temp[k];
    }"

/-- `templates/layers/Resize/template_ResizeCubic1D.c.tpl` -/
def resizeCubic1D : List Char := chars! "    // {{name}}_{{idx}}{{comment}} {{#original_name}}(layer {{original_name}} in  input model){{/original_name}}
    a = {{cubic_coeff_a}};

    for (f = 0; f < {{output_channels}}; ++f)
    {
        for (i = 0; i < {{output_height}}; ++i)
        {
            for(j = 0; j < {{output_width}}; ++j)
            {
                {{{coordinate_transformation_mode}}}
                x0 = floor(x);

                f_1 = x0-1 < 0 ? ctx->{{output_str}}[0 + {{dimension}}*f] : x0-1 >= {{dimension}} ? ctx->{{output_str}}[{{dimension}} - 1 + {{dimension}}*f] : ctx->{{output_str}}[x0-1 + {{dimension}}*f];
                f0 = x0 < 0 ? ctx->{{output_str}}[0 + {{dimension}}*f] : x0 >= {{dimension}} ? ctx->{{output_str}}[{{dimension}} - 1 + {{dimension}}*f] : ctx->{{output_str}}[x0 + {{dimension}}*f];
                f1 = x0+1 < 0 ? ctx->{{output_str}}[0 + {{dimension}}*f] : x0+1 >= {{dimension}} ? ctx->{{output_str}}[{{dimension}} - 1 + {{dimension}}*f] : ctx->{{output_str}}[x0+1 + {{dimension}}*f];
                f2 = x0+ 2 < 0 ? ctx->{{output_str}}[0 + {{dimension}}*f] : x0+2 >= {{dimension}} ? ctx->{{output_str}}[{{dimension}} - 1 + {{dimension}}*f] : ctx->{{output_str}}[x0+2 + {{dimension}}*f];

                s = x - x0;

                ctx->tensor_temp[j + {{output_width}}*(i + {{output_height}}*f)] = f_1*a*s*(1 + s*(s - 2)) + f0*(s*s*(a*(s - 1) + 2*s - 3) + 1) + f1*s*(s*(-s*(2 + a) + 2*a + 3) - a) + f2*a*s*s*(1 - s);
                ctx->tensor_temp[j + {{output_width}}*(i + {{output_height}}*f)] = {{{activation_function}}};
            }
        }
    }

    for(k = 0; k < {{size}}; ++k)
    {
        ctx->output_{{road}}[k] = ctx->tensor_temp[k];
    }"

/-- `templates/layers/Resize/template_ResizeCubic2D.c.tpl` -/
def resizeCubic2D : List Char := chars! "    // {{name}}_{{idx}}{{comment}} {{#original_name}}(layer {{original_name}} in  input model){{/original_name}}
    a = {{cubic_coeff_a}};

    for (f = 0; f < {{output_channels}}; ++f)
    {
        for (i = 0; i < {{output_height}}; ++i)
        {
            for(j = 0; j < {{output_width}}; ++j)
            {
                {{{coordinate_transformation_mode_x}}}
                x0 = floor(x);
                {{{coordinate_transformation_mode_y}}}
                y0 = floor(y);

                col_index = y0-1 < 0 ? 0 : y0-1 >= {{input_width}} ? {{input_width}} - 1 : y0-1;
                f_1 = x0-1 < 0 ? ctx->{{output_str}}[col_index + {{input_width}}*(0 + {{input_height}}*f)] : x0-1 >= {{input_height}} ? ctx->{{output_str}}[col_index + {{input_width}}*({{input_height}} - 1 + {{input_height}}*f)] : ctx->{{output_str}}[col_index + {{input_width}}*(x0-1 + {{input_height}}*f)];
                f0 = x0 < 0 ? ctx->{{output_str}}[col_index + {{input_width}}*(0 + {{input_height}}*f)] : x0 >= {{input_height}} ? ctx->{{output_str}}[col_index + {{input_width}}*({{input_height}} - 1 + {{input_height}}*f)] : ctx->{{output_str}}[col_index + {{input_width}}*(x0 + {{input_height}}*f)];
                f1 = x0+1 < 0 ? ctx->{{output_str}}[col_index + {{input_width}}*(0 + {{input_height}}*f)] : x0+1 >= {{input_height}} ? ctx->{{output_str}}[col_index + {{input_width}}*({{input_height}} - 1 + {{input_height}}*f)] : ctx->{{output_str}}[col_index + {{input_width}}*(x0+1 + {{input_height}}*f)];
                f2 = x0+2 < 0 ? ctx->{{output_str}}[col_index + {{input_width}}*(0 + {{input_height}}*f)] : x0+2 >= {{input_height}} ? ctx->{{output_str}}[col_index + {{input_width}}*({{input_height}} - 1 + {{input_height}}*f)] : ctx->{{output_str}}[col_index + {{input_width}}*(x0+2 + {{input_height}}*f)];
                s = x - x0;
                float register b_1 = f_1*a*s*(1 + s*(s - 2)) + f0*(s*s*(a*(s - 1) + 2*s - 3) + 1) + f1*s*(s*(-s*(2 + a) + 2*a + 3) - a) + f2*a*s*s*(1 - s);

                col_index = y0 < 0 ? 0 : y0 >= {{input_width}} ? {{input_width}} - 1 : y0;
                f_1 = x0-1 < 0 ? ctx->{{output_str}}[col_index + {{input_width}}*(0 + {{input_height}}*f)] : x0-1 >= {{input_height}} ? ctx->{{output_str}}[col_index + {{input_width}}*({{input_height}} - 1 + {{input_height}}*f)] : ctx->{{output_str}}[col_index + {{input_width}}*(x0-1 + {{input_height}}*f)];
                f0 = x0 < 0 ? ctx->{{output_str}}[col_index + {{input_width}}*(0 + {{input_height}}*f)] : x0 >= {{input_height}} ? ctx->{{output_str}}[col_index + {{input_width}}*({{input_height}} - 1 + {{input_height}}*f)] : ctx->{{output_str}}[col_index + {{input_width}}*(x0 + {{input_height}}*f)];
                f1 = x0+1 < 0 ? ctx->{{output_str}}[col_index + {{input_width}}*(0 + {{input_height}}*f)] : x0+1 >= {{input_height}} ? ctx->{{output_str}}[col_index + {{input_width}}*({{input_height}} - 1 + {{input_height}}*f)] : ctx->{{output_str}}[col_index + {{input_width}}*(x0+1 + {{input_height}}*f)];
                f2 = x0+2 < 0 ? ctx->{{output_str}}[col_index + {{input_width}}*(0 + {{input_height}}*f)] : x0+2 >= {{input_height}} ? ctx->{{output_str}}[col_index + {{input_width}}*({{input_height}} - 1 + {{input_height}}*f)] : ctx->{{output_str}}[col_index + {{input_width}}*(x0+2 + {{input_height}}*f)];
                s = x - x0;
                float register b0 = f_1*a*s*(1 + s*(s - 2)) + f0*(s*s*(a*(s - 1) + 2*s - 3) + 1) + f1*s*(s*(-s*(2 + a) + 2*a + 3) - a) + f2*a*s*s*(1 - s);

                col_index = y0+1 < 0 ? 0 : y0+1 >= {{input_width}} ? {{input_width}} - 1 : y0+1;
                f_1 = x0-1 < 0 ? ctx->{{output_str}}[col_index + {{input_width}}*(0 + {{input_height}}*f)] : x0-1 >= {{input_height}} ? ctx->{{output_str}}[col_index + {{input_width}}*({{input_height}} - 1 + {{input_height}}*f)] : ctx->{{output_str}}[col_index + {{input_width}}*(x0-1 + {{input_height}}*f)];
                f0 = x0 < 0 ? ctx->{{output_str}}[col_index + {{input_width}}*(0 + {{input_height}}*f)] : x0 >= {{input_height}} ? ctx->{{output_str}}[col_index + {{input_width}}*({{input_height}} - 1 + {{input_height}}*f)] : ctx->{{output_str}}[col_index + {{input_width}}*(x0 + {{input_height}}*f)];
                f1 = x0+1 < 0 ? ctx->{{output_str}}[col_index + {{input_width}}*(0 + {{input_height}}*f)] : x0+1 >= {{input_height}} ? ctx->{{output_str}}[col_index + {{input_width}}*({{input_height}} - 1 + {{input_height}}*f)] : ctx->{{output_str}}[col_index + {{input_width}}*(x0+1 + {{input_height}}*f)];
                f2 = x0+2 < 0 ? ctx->{{output_str}}[col_index + {{input_width}}*(0 + {{input_height}}*f)] : x0+2 >= {{input_height}} ? ctx->{{output_str}}[col_index + {{input_width}}*({{input_height}} - 1 + {{input_height}}*f)] : ctx->{{output_str}}[col_index + {{input_width}}*(x0+2 + {{input_height}}*f)];
                s = x - x0;
                float register b1 = f_1*a*s*(1 + s*(s - 2)) + f0*(s*s*(a*(s - 1) + 2*s - 3) + 1) + f1*s*(s*(-s*(2 + a) + 2*a + 3) - a) + f2*a*s*s*(1 - s);

                col_index = y0+2 < 0 ? 0 : y0+2 >= {{input_width}} ? {{input_width}} - 1 : y0+2;
                f_1 = x0-1 < 0 ? ctx->{{output_str}}[col_index + {{input_width}}*(0 + {{input_height}}*f)] : x0-1 >= {{input_height}} ? ctx->{{output_str}}[col_index + {{input_width}}*({{input_height}} - 1 + {{input_height}}*f)] : ctx->{{output_str}}[col_index + {{input_width}}*(x0-1 + {{input_height}}*f)];
                f0 = x0 < 0 ? ctx->{{output_str}}[col_index + {{input_width}}*(0 + {{input_height}}*f)] : x0 >= {{input_height}} ? ctx->{{output_str}}[col_index + {{input_width}}*({{input_height}} - 1 + {{input_height}}*f)] : ctx->{{output_str}}[col_index + {{input_width}}*(x0 + {{input_height}}*f)];
                f1 = x0+1 < 0 ? ctx->{{output_str}}[col_index + {{input_width}}*(0 + {{input_height}}*f)] : x0+1 >= {{input_height}} ? ctx->{{output_str}}[col_index + {{input_width}}*({{input_height}} - 1 + {{input_height}}*f)] : ctx->{{output_str}}[col_index + {{input_width}}*(x0+1 + {{input_height}}*f)];
                f2 = x0+2 < 0 ? ctx->{{output_str}}[col_index + {{input_width}}*(0 + {{input_height}}*f)] : x0+2 >= {{input_height}} ? ctx->{{output_str}}[col_index + {{input_width}}*({{input_height}} - 1 + {{input_height}}*f)] : ctx->{{output_str}}[col_index + {{input_width}}*(x0+2 + {{input_height}}*f)];
                s = x - x0;
                float register b2 = f_1*a*s*(1 + s*(s - 2)) + f0*(s*s*(a*(s - 1) + 2*s - 3) + 1) + f1*s*(s*(-s*(2 + a) + 2*a + 3) - a) + f2*a*s*s*(1 - s);

                s = y - y0;

                ctx->tensor_temp[j + {{output_width}}*(i + {{output_height}}*f)] = b_1*a*s*(1 + s*(s - 2)) + b0*(s*s*(a*(s - 1) + 2*s - 3) + 1) + b1*s*(s*(-s*(2 + a) + 2*a + 3) - a) + b2*a*s*s*(1 - s);
                ctx->tensor_temp[j + {{output_width}}*(i + {{output_height}}*f)] = {{{activation_function}}};
            }
        }
    }

    for(k = 0; k < {{size}}; ++k)
    {
        ctx->output_{{road}}[k] = ctx->tensor_temp[k];
    }"

/-- `templates/memory_layout/template_output.c.tpl` -/
def output : List Char := chars! "{{#keep_channels}}
    // Output is in same data_format as Input
    for (k = 0; k < {{output_size}}; ++k)
    {
        prediction[k] = ctx->output_{{path}}[k];
    }
{{/keep_channels}}
{{#channels_first_to_last}}
    // Convert output layer from channels_first to channels_last
    for(f = 0; f < {{output_channels}}; ++f)
    {
        for (i = 0; i < {{output_height}}; ++i)
        {
            for (j = 0; j < {{output_width}};  ++j)
            {
                prediction[(i*{{output_width}} + j)*{{output_channels}} + f] = ctx->output_{{path}}[(f*{{output_height}} + i)*{{output_width}} + j];
            }
        }
    }
{{/channels_first_to_last}}
{{#channels_last_to_first}}
    // Convert output layer from channels_last to channels_first
    for(f = 0; f < {{output_channels}}; ++f)
    {
        for (i = 0; i < {{output_height}}; ++i)
        {
            for (j = 0; j < {{output_width}};  ++j)
            {
                prediction[(f*{{output_height}} + i)*{{output_width}} + j] = ctx->output_{{path}}[(i*{{output_width}} + j)*{{output_channels}} + f];
            }
        }
    }    
{{/channels_last_to_first}}
"

/-- `templates/template_source_file.c.tpl` -/
def source_file : List Char := chars! "#include <stdio.h>
#include <math.h>
#include \"inference.h\"
{{#target_specific}}
#include \"target.h\"
{{/target_specific}}
{{#time}}
#include <time.h>
#include \"MMU.h\"
#include \"PMH.h\"

unsigned long long int start, end, difference;

#define counter_id 0x1
#define event_id 0x11
{{/time}}

int inference(inference_t *ctx, {{data_type}} prediction[{{output_size}}], {{data_type}} nn_input[{{input_size}}]){
    {{#debug_file}}
    FILE *fp = fopen(\"{{debug_file}}\", \"w+\");

    {{/debug_file}}
    {{#time}}
    difference = 0;
    select_evt_counter(counter_id);
    event_track(counter_id);
    enable_evt_counter(counter_id);

    {{/time}}
    int f;
    int i;
    int j;
    int k;
    {{#p}}
    int p;
    {{/p}}
    {{#hw}}
    int h;
    int w;
    {{/hw}}

{{#is_dense}}
    {{temp_data_type}} dotproduct;
{{/is_dense}}
{{#is_sum}}
    {{data_type}} sum;
{{/is_sum}}
{{#is_max}}
    {{data_type}} max;
{{/is_max}}
{{#is_count}}
    int count;
{{/is_count}}
{{#is_resize}}
    float x;
    float y;
    int x0;
    int y0;
{{/is_resize}}
{{#is_cubic_interpolation}}
    int col_index;
    float a;
    float f_1;
    float f0;
    float f1;
    float f2;
    float s;
{{/is_cubic_interpolation}}
{{#is_linear_interpolation}}
    int y1;
    int x1;
    float f11;
    float f12;
    float f21;
    float f22;
{{/is_linear_interpolation}}
{{#is_gather}}
    int position;
    {{#indices}}
    int indice_Gather_{{idx}}[{{length}}] = {{list}};
    {{/indices}}
{{/is_gather}}
{{#is_reduced}}
    {{data_type}} reduced;
{{/is_reduced}}

{{{pre_processing}}}
{{#layers}}
{{#time}}
    reset_evt_counter(0);
    start = read_evt_counter();
{{/time}}
{{{inference_function}}}
{{#time}}
    end = read_evt_counter();
    difference = difference + end - start;
    printf(\"time {{name}} {{idx}}: %llu\\n\",end-start);
{{/time}}
{{#debug_layer}}
    fprintf(fp, \"{{name}} {{idx}} {{to_transpose}} {{channels}} {{height}} {{width}}\\n\");
    for (k = 0; k < {{size}}; ++k)
    {
        fprintf(fp,\"%.9g \", output_{{path}}[k]);
        if (k == {{size}} - 1)
        {
            fprintf(fp, \"\\n\");
        }
    }
{{/debug_layer}}

    {{#cst}}
    for (k = 0; k < {{size}}; k++)
    {
        ctx->cst_{{cst_name}}[k] = ctx->output_{{path}}[k];
    }
    {{/cst}}
{{/layers}}

{{#time}}
    reset_evt_counter(0);
    start = read_evt_counter();
{{/time}}
{{{output_str}}}
{{#time}}
    end = read_evt_counter();
    difference = difference + end - start;
    printf(\"time output: %llu\\n\",end-start);
    printf(\"\\ntime total time: %llu\\n\",difference);
{{/time}}


{{{post_processing}}}
    return 0;
}"

end Verif.CText.Tpl
